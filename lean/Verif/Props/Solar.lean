import Verif.Model.Solar
import Verif.Lemmas.Rotation
import Verif.Lemmas.Tangent
import Verif.Props.Coord
import Verif.Props.Precess
import Mathlib.Tactic

/-! Properties C114, C115, C117, C118: the Sun's coordinates, the equation of time, the solar disk, rectangular coordinates. -/

namespace Verif.Props

open Verif.Go Real Verif.Model Verif.Model.Nutation Verif.Model.Solar Verif.Lemmas Verif.Spec

theorem sdeg_pos : 0 < deg := by unfold deg; positivity
theorem ssec_pos : 0 < sec := by unfold sec; positivity

/-! ### C114 -/

/-- Longitude and anomaly are in [0, 2π), and their difference is the longitude of perigee, up to full turns. -/
theorem C114_ranges (T : ℝ) :
    0 ≤ (TrueLon T).1 ∧ (TrueLon T).1 < 2 * π ∧ 0 ≤ (TrueLon T).2 ∧ (TrueLon T).2 < 2 * π ∧
    ∃ k : ℤ, (TrueLon T).1 - (TrueLon T).2 = meanLon T - MeanAnomaly T + k * (2 * π) := by
  obtain ⟨a0, a1, k, hk⟩ := mod1_eq (meanLon T + center T)
  obtain ⟨b0, b1, n, hn⟩ := mod1_eq (MeanAnomaly T + center T)
  refine ⟨a0, a1, b0, b1, n - k, ?_⟩
  unfold TrueLon
  push_cast
  linear_combination hn - hk

/-- The equation of the centre is below two degrees for ten centuries either side of 2000. -/
theorem C114_center (T : ℝ) (hT : |T| ≤ 10) : |center T| ≤ 2 * deg := by
  have hd := sdeg_pos
  rw [abs_le] at hT
  unfold center hornerR
  simp only [List.foldr]
  rw [abs_mul, abs_of_pos hd]
  refine mul_le_mul_of_nonneg_right ?_ hd.le
  have s1 := abs_sin_le_one (MeanAnomaly T)
  have s2 := abs_sin_le_one (MeanAnomaly T * 2)
  have s3 := abs_sin_le_one (MeanAnomaly T * 3)
  have c1 : |((0 * T + -0.000014) * T + -0.004817) * T + 1.914602| ≤ 1.965 := by
    rw [abs_le]; constructor <;> nlinarith
  have c2 : |0.019993 - 0.000101 * T| ≤ 0.0211 := by
    rw [abs_le]; constructor <;> linarith
  have t1 : |(((0 * T + -0.000014) * T + -0.004817) * T + 1.914602) * sin (MeanAnomaly T)| ≤ 1.965 * 1 := by
    rw [abs_mul]; exact mul_le_mul c1 s1 (abs_nonneg _) (by norm_num)
  have t2 : |(0.019993 - 0.000101 * T) * sin (MeanAnomaly T * 2)| ≤ 0.0211 * 1 := by
    rw [abs_mul]; exact mul_le_mul c2 s2 (abs_nonneg _) (by norm_num)
  have t3 : |0.000289 * sin (MeanAnomaly T * 3)| ≤ 0.000289 := by
    rw [abs_mul, abs_of_pos (by norm_num : (0 : ℝ) < 0.000289)]; linarith
  refine (abs_add_three _ _ _).trans ?_
  linarith

/-- The distance is between the perihelion and the aphelion distances, whenever the eccentricity is that of an ellipse. -/
theorem C114_radius (T : ℝ) (h0 : 0 ≤ Eccentricity T) (h1 : Eccentricity T < 1) :
    1.000001018 * (1 - Eccentricity T) ≤ Radius T ∧ Radius T ≤ 1.000001018 * (1 + Eccentricity T) := by
  unfold Radius
  dsimp only
  set e := Eccentricity T
  have c1 := cos_le_one (TrueLon T).2
  have c2 := neg_one_le_cos (TrueLon T).2
  have hd : 0 < 1 + e * cos (TrueLon T).2 := by nlinarith
  constructor
  · rw [le_div_iff₀ hd]; nlinarith [mul_nonneg h0 (sub_nonneg.mpr h1.le), mul_le_mul_of_nonneg_left c1 h0]
  · rw [div_le_iff₀ hd]; nlinarith [mul_le_mul_of_nonneg_left c2 h0]

/-- The eccentricity is that of an ellipse for 150 centuries. -/
theorem C114_ecc (T : ℝ) (hT : |T| ≤ 150) : 0 ≤ Eccentricity T ∧ Eccentricity T ≤ 0.021 := by
  rw [abs_le] at hT
  unfold Eccentricity hornerR
  simp only [List.foldr]
  constructor <;> nlinarith

/-- `TrueEquatorial` is the point of the ecliptic at the true longitude, turned by the obliquity. -/
theorem C114_trueEquatorial (jde : ℝ) :
    dir (TrueEquatorial jde).1 (TrueEquatorial jde).2 = rotX (MeanObliquity jde) (dir (TrueLon (J2000Century jde)).1 0) ∧
    0 ≤ (TrueEquatorial jde).1 ∧ (TrueEquatorial jde).1 < 2 * π := by
  unfold TrueEquatorial
  dsimp only
  set s := (TrueLon (J2000Century jde)).1
  set ε := MeanObliquity jde
  obtain ⟨m0, m1, -⟩ := mod1_eq (atan2 (cos ε * sin s) (cos s))
  refine ⟨?_, m0, m1⟩
  rw [dir_mod1, dir_of_xyz]
  · unfold dir
    rw [rotX_vec]
    apply vec_eq <;> simp
  · have e1 := sin_sq_add_cos_sq s
    have e2 := sin_sq_add_cos_sq ε
    linear_combination e1 + sin s ^ 2 * e2

/-- `ApparentEquatorial` is the point of the ecliptic at the apparent longitude, turned by the corrected obliquity, and the apparent
longitude is within 0.0105 degrees of the true one. -/
theorem C114_apparentEquatorial (jde : ℝ) :
    ∃ ε, |ε - MeanObliquity jde| ≤ 0.00256 * deg ∧
      dir (ApparentEquatorial jde).1 (ApparentEquatorial jde).2 = rotX ε (dir (ApparentLongitude (J2000Century jde)) 0) ∧
      |ApparentLongitude (J2000Century jde) - (TrueLon (J2000Century jde)).1| ≤ 0.0105 * deg := by
  have hd := sdeg_pos
  refine ⟨MeanObliquity jde + 0.00256 * deg * cos (node (J2000Century jde)), ?_, ?_, ?_⟩
  · rw [add_sub_cancel_left, abs_mul, abs_of_pos (by positivity)]
    have := abs_cos_le_one (node (J2000Century jde))
    nlinarith
  · unfold ApparentEquatorial
    dsimp only
    set s := ApparentLongitude (J2000Century jde)
    set ε := MeanObliquity jde + 0.00256 * deg * cos (node (J2000Century jde))
    rw [dir_mod1, dir_of_xyz]
    · unfold dir
      rw [rotX_vec]
      apply vec_eq <;> simp
    · have e1 := sin_sq_add_cos_sq s
      have e2 := sin_sq_add_cos_sq ε
      linear_combination e1 + sin s ^ 2 * e2
  · unfold ApparentLongitude
    have := abs_le.mp (abs_sin_le_one (node (J2000Century jde)))
    rw [abs_le]
    constructor <;> nlinarith

/-- A small change of coordinates is a small change of direction. -/
theorem norm_dir_sub (r d r' d' : ℝ) : ‖dir r d - dir r' d'‖ ≤ |r - r'| + |d - d'| := by
  have key : ∀ v w : V3, ‖v‖ = 1 → ‖w‖ = 1 → ‖v - w‖ ^ 2 = 2 - 2 * inner ℝ v w := by
    intro v w hv hw
    rw [norm_sub_sq_real, hv, hw]; ring
  have h1 : ‖dir r d - dir r' d‖ ≤ |r - r'| := by
    apply abs_le_of_sq_le_sq' _ (abs_nonneg _) |>.2
    rw [key _ _ (norm_dir _ _) (norm_dir _ _), inner_dir, sq_abs]
    have c := one_sub_sq_div_two_le_cos (x := r - r')
    have e := sin_sq_add_cos_sq d
    have c1 := cos_le_one (r - r')
    nlinarith [sq_nonneg (sin d), sq_nonneg (cos d)]
  have h2 : ‖dir r' d - dir r' d'‖ ≤ |d - d'| := by
    apply abs_le_of_sq_le_sq' _ (abs_nonneg _) |>.2
    rw [key _ _ (norm_dir _ _) (norm_dir _ _), inner_dir, sq_abs, sub_self, cos_zero, mul_one]
    have c := one_sub_sq_div_two_le_cos (x := d - d')
    rw [cos_sub] at c
    linarith
  calc ‖dir r d - dir r' d'‖ = ‖(dir r d - dir r' d) + (dir r' d - dir r' d')‖ := by rw [sub_add_sub_cancel]
    _ ≤ _ := (norm_add_le _ _).trans (add_le_add h1 h2)

theorem dir_opposite (l b : ℝ) : dir (l + π) (-b) = -dir l b := by
  unfold dir
  ext i
  fin_cases i <;> simp

/-- `TrueVSOP87`: the Sun is opposite to the Earth as seen from the Sun, at the same distance, up to the FK5 correction of less than
0.146 seconds of arc. -/
theorem C114_vsop (e : ℝ → ℝ × ℝ × ℝ) (jde : ℝ) :
    0 ≤ (TrueVSOP87 e jde).1 ∧ (TrueVSOP87 e jde).1 < 2 * π ∧ (TrueVSOP87 e jde).2.2 = (e jde).2.2 ∧
    ‖dir (TrueVSOP87 e jde).1 (TrueVSOP87 e jde).2.1 - -dir (e jde).1 (e jde).2.1‖ ≤ 0.146 * sec := by
  have hs := ssec_pos
  unfold TrueVSOP87
  dsimp only
  obtain ⟨m0, m1, -⟩ := mod1_eq ((e jde).1 + π - 0.09033 * sec)
  refine ⟨m0, m1, rfl, ?_⟩
  rw [dir_mod1, ← dir_opposite]
  refine (norm_dir_sub _ _ _ _).trans ?_
  rw [show (e jde).1 + π - 0.09033 * sec - ((e jde).1 + π) = -(0.09033 * sec) by ring, abs_neg, abs_of_pos (by positivity)]
  set x := hornerR (J2000Century jde) [(e jde).1 + π, -1.397 * π / 180, -0.00031 * π / 180]
  rw [show 0.03916 * sec * (cos x - sin x) - (e jde).2.1 - -(e jde).2.1 = 0.03916 * sec * (cos x - sin x) by ring, abs_mul,
    abs_of_pos (by positivity)]
  have : |cos x - sin x| ≤ 1.4143 := by
    apply abs_le_of_sq_le_sq _ (by norm_num)
    have := sin_sq_add_cos_sq x
    nlinarith [sq_nonneg (cos x + sin x)]
  nlinarith

/-- `ApparentEquatorialVSOP87` and `ApparentVSOP87` describe one direction. -/
theorem C114_apparent_vsop (e : ℝ → ℝ × ℝ × ℝ) (jde : ℝ) (hβ : |(ApparentVSOP87 e jde).2.1| < π / 2) :
    dir (ApparentEquatorialVSOP87 e jde).1 (ApparentEquatorialVSOP87 e jde).2.1 =
      rotX (MeanObliquity jde + (Nutation jde).2) (dir (ApparentVSOP87 e jde).1 (ApparentVSOP87 e jde).2.1) ∧
    (ApparentEquatorialVSOP87 e jde).2.2 = (ApparentVSOP87 e jde).2.2 := by
  refine ⟨?_, rfl⟩
  unfold ApparentEquatorialVSOP87 ApparentVSOP87 at *
  dsimp only at *
  rw [C46_eclToEq_rotation _ _ _ _ (sin_sq_add_cos_sq _) (cos_pos_of_abs_lt hβ)]
  unfold dir
  rw [rotX_vec]

/-! ### C115 -/

/-- The equation of time is in [−π, π) and is, up to full turns, the mean longitude less the constant .0057183 degrees, less the
apparent right ascension, plus the equation of the equinoxes. -/
theorem C115_E (jde : ℝ) (e : ℝ → ℝ × ℝ × ℝ) :
    -π ≤ Eqtime.E jde e ∧ Eqtime.E jde e < π ∧
    ∃ k : ℤ, Eqtime.E jde e = Eqtime.l0 (J2000Century jde / 10) - 0.0057183 * deg - (ApparentEquatorialVSOP87 e jde).1 +
      NutationInRA jde + k * (2 * π) := by
  unfold Eqtime.E ApparentEquatorialVSOP87 NutationInRA aberration
  dsimp only
  rw [show J2000Century jde * 0.1 = J2000Century jde / 10 by ring]
  generalize Eqtime.l0 (J2000Century jde / 10) - 0.0057183 * deg - _ + (Nutation jde).1 * _ = x
  obtain ⟨m0, m1, k, hk⟩ := mod1_eq (x + π)
  refine ⟨by linarith, by linarith, -k, ?_⟩
  push_cast
  linear_combination -hk

/-! ### C117 -/

open Verif.Model.Solardisk

/-- The inclination of the solar equator and the longitude of its node, of the property. -/
noncomputable def solarI : ℝ := 7.25 * deg
noncomputable def solarK (jd : ℝ) : ℝ := 73.6667 * deg + 1.3958333 * deg * ((jd - 2396758) / 36525)

/-- C117.  B0 is a latitude of at most 7.25 degrees, L0 is in [0, 2π), and they are the coordinates, in the frame of the solar
equator turning once in 25.38 days, of the direction from the Sun to the Earth. -/
theorem C117_disk (jd l lp ε : ℝ) :
    ∃ P B L, orient jd l lp ε = (P, B, L) ∧ |B| ≤ solarI ∧ 0 ≤ L ∧ L < 2 * π ∧
      dir (L + (jd - 2398220) * 2 * π / 25.38) B = rotX (-solarI) (rotZ (-solarK jd) (-dir l 0)) := by
  refine ⟨_, _, _, rfl, ?_, ?_⟩
  · have hI : 0 ≤ solarI ∧ solarI ≤ π / 2 := by
      unfold solarI deg
      have := pi_pos
      constructor
      · positivity
      · linarith
    have hs : 0 ≤ sin solarI := sin_nonneg_of_nonneg_of_le_pi hI.1 (by linarith [pi_pos])
    have e1 : arcsin (sin solarI) = solarI := arcsin_sin (by linarith [pi_pos]) hI.2
    have b := abs_le.mp (abs_sin_le_one (l - solarK jd))
    rw [abs_le]
    constructor
    · rw [← neg_neg (arcsin _), neg_le_neg_iff, ← arcsin_neg, ← e1]
      apply arcsin_le_arcsin
      show -(sin (l - solarK jd) * sin solarI) ≤ sin solarI
      nlinarith
    · rw [← e1]
      apply arcsin_le_arcsin
      show sin (l - solarK jd) * sin solarI ≤ sin solarI
      nlinarith
  · obtain ⟨m0, m1, k, hk⟩ := mod1_eq (atan2 (-sin (l - solarK jd) * cos solarI) (-cos (l - solarK jd)) - (jd - 2398220) * 2 * π / 25.38)
    refine ⟨m0, m1, ?_⟩
    show dir (mod1 (atan2 (-sin (l - solarK jd) * cos solarI) (-cos (l - solarK jd)) - (jd - 2398220) * 2 * π / 25.38) + _)
      (arcsin (sin (l - solarK jd) * sin solarI)) = _
    rw [← rotZ_dir, dir_mod1, rotZ_dir, sub_add_cancel, dir_of_xyz]
    · rw [← dir_opposite, neg_zero, rotZ_dir]
      unfold dir
      rw [rotX_vec, cos_neg, sin_neg, show l + π + -solarK jd = (l - solarK jd) + π by ring, sin_add_pi, cos_add_pi]
      apply vec_eq <;> simp <;> ring
    · have e1 := sin_sq_add_cos_sq (l - solarK jd)
      have e2 := sin_sq_add_cos_sq solarI
      linear_combination e1 + sin (l - solarK jd) ^ 2 * e2

/-- The pole of the solar equator in ecliptic coordinates, and the celestial pole. -/
noncomputable def solarPole (jd : ℝ) : V3 := rotZ (solarK jd) (rotX solarI !₂[0, 0, 1])
noncomputable def celestialPole (ε : ℝ) : V3 := rotX (-ε) !₂[0, 0, 1]

/-- C117.  P is the position angle of the solar pole at the Sun, from the direction of the celestial pole through east: there is a
direction of the celestial pole, at the angle p from ecliptic north, and the solar pole is at the angle p + P from ecliptic north
(without the nutation in longitude, l = lp). -/
theorem C117_position (jd l ε : ℝ) (hε : |ε| < π / 2) :
    ∃ p ρ σ : ℝ, 0 < ρ ∧ 0 < σ ∧
      perp (dir l 0) (celestialPole ε) = ρ • (cos p • north l 0 + sin p • east l) ∧
      perp (dir l 0) (solarPole jd) =
        σ • (cos (p + (orient jd l l ε).1) • north l 0 + sin (p + (orient jd l l ε).1) • east l) := by
  have hI : |solarI| < π / 2 := by
    unfold solarI deg
    have := pi_pos
    rw [abs_of_pos (by positivity)]; linarith
  have cε := cos_pos_of_abs_lt hε
  have cI := cos_pos_of_abs_lt hI
  have key : ∀ x c : ℝ, 0 < c → ∃ ρ, 0 < ρ ∧ ρ * cos (arctan (x / c)) = c ∧ ρ * sin (arctan (x / c)) = x := by
    intro x c hc
    refine ⟨c * sqrt (1 + (x / c) ^ 2), by positivity, ?_, ?_⟩
    · rw [cos_arctan]; field_simp
    · rw [sin_arctan]; field_simp
  obtain ⟨ρ, hρ, r1, r2⟩ := key (cos l * sin ε) (cos ε) cε
  obtain ⟨σ, hσ, s1, s2⟩ := key (-(cos (l - solarK jd) * sin solarI)) (cos solarI) cI
  have e1 : (orient jd l l ε).1 = -arctan (cos l * sin ε / cos ε) + arctan (-(cos (l - solarK jd) * sin solarI) / cos solarI) := by
    show arctan (-(cos l * tan ε)) + arctan (-(cos (l - solarK jd) * tan solarI)) = _
    rw [← arctan_neg, tan_eq_sin_div_cos, tan_eq_sin_div_cos]
    congr 2 <;> ring
  refine ⟨arctan (cos l * sin ε / cos ε), ρ, σ, hρ, hσ, ?_, ?_⟩
  · rw [smul_add, smul_smul, smul_smul, r1, r2]
    unfold celestialPole dir north east
    rw [rotX_vec, perp_vec]
    have f := sin_sq_add_cos_sq l
    ext i
    fin_cases i <;> simp
    · ring
    · linear_combination (-sin ε) * f
  · rw [e1, add_neg_cancel_left, smul_add, smul_smul, smul_smul, s1, s2]
    unfold solarPole dir north east
    rw [rotX_vec, rotZ_vec, perp_vec, cos_sub]
    have f := sin_sq_add_cos_sq l
    ext i
    fin_cases i <;> simp
    · linear_combination (-(sin (solarK jd) * sin solarI)) * f
    · linear_combination (cos (solarK jd) * sin solarI) * f

/-- C117.  Carrington rotations start in order, 26.9 to 27.7 days apart. -/
theorem C117_cycle (c : ℤ) :
    26.9 < Solardisk.Cycle (c + 1) - Solardisk.Cycle c ∧
      Solardisk.Cycle (c + 1) - Solardisk.Cycle c < 27.7 := by
  unfold Solardisk.Cycle
  dsimp only
  push_cast
  set m := 281.96 * π / 180 + 26.882476 * π / 180 * (c : ℝ)
  set m' := 281.96 * π / 180 + 26.882476 * π / 180 * ((c : ℝ) + 1)
  have a1 := sin_le_one m
  have a2 := neg_one_le_sin m
  have b1 := sin_le_one m'
  have b2 := neg_one_le_sin m'
  have c1 := sin_le_one (2 * m)
  have c2 := neg_one_le_sin (2 * m)
  have d1 := sin_le_one (2 * m')
  have d2 := neg_one_le_sin (2 * m')
  have e1 := cos_le_one (2 * m)
  have e2 := neg_one_le_cos (2 * m)
  have f1 := cos_le_one (2 * m')
  have f2 := neg_one_le_cos (2 * m')
  constructor <;> linarith

/-! ### C118 -/

open Verif.Model.Solarxyz

/-- Three numbers as a vector. -/
noncomputable def asVec (p : ℝ × ℝ × ℝ) : V3 := !₂[p.1, p.2.1, p.2.2]

/-- The heliocentric ecliptic vector of the Sun, opposite to the Earth. -/
theorem C118_xyz (e : ℝ → ℝ × ℝ × ℝ) (jde : ℝ) : asVec (xyz e jde) = -((e jde).2.2 • dir (e jde).1 (e jde).2.1) := by
  unfold asVec xyz dir
  ext i
  fin_cases i <;> simp <;> ring

theorem C118_longitude (e : ℝ → ℝ × ℝ × ℝ) (jde : ℝ) :
    0 ≤ LongitudeJ2000 e jde ∧ LongitudeJ2000 e jde < 2 * π ∧
    ∃ k : ℤ, LongitudeJ2000 e jde = (e jde).1 + π - 0.09033 * sec + k * (2 * π) := by
  obtain ⟨m0, m1, k, hk⟩ := mod1_eq ((e jde).1 + π - 0.09033 * sec)
  refine ⟨m0, m1, -k, ?_⟩
  unfold LongitudeJ2000
  push_cast
  linear_combination -hk

/-- C118.  Rectangular coordinates of date are those of the Sun's true place, but for the cosine of the latitude. -/
theorem C118_position (e : ℝ → ℝ × ℝ × ℝ) (jde : ℝ) (hR : 0 ≤ (e jde).2.2) :
    ‖asVec (Solarxyz.Position e jde) - (e jde).2.2 • rotX (MeanObliquity jde) (dir (TrueVSOP87 e jde).1 (TrueVSOP87 e jde).2.1)‖
      = (e jde).2.2 * (1 - cos (TrueVSOP87 e jde).2.1) := by
  have h3 : (TrueVSOP87 e jde).2.2 = (e jde).2.2 := rfl
  unfold Solarxyz.Position
  dsimp only
  rw [h3]
  set s := (TrueVSOP87 e jde).1
  set β := (TrueVSOP87 e jde).2.1
  set R := (e jde).2.2
  set ε := MeanObliquity jde
  have hc := cos_le_one β
  have e0 : asVec (R * cos s, R * (sin s * cos ε - sin β * sin ε), R * (sin s * sin ε + sin β * cos ε)) - R • rotX ε (dir s β) =
      (R * (1 - cos β)) • rotX ε (dir s 0) := by
    unfold asVec dir
    rw [rotX_vec, rotX_vec]
    ext i
    fin_cases i <;> simp <;> ring
  rw [e0, norm_smul, norm_eq_abs, abs_of_nonneg (mul_nonneg hR (by linarith))]
  have : ‖rotX ε (dir s 0)‖ = 1 := by
    have h := inner_rotX ε (dir s 0) (dir s 0)
    rw [real_inner_self_eq_norm_sq, real_inner_self_eq_norm_sq, norm_dir, one_pow] at h
    exact (pow_eq_one_iff_of_nonneg (norm_nonneg _) (by norm_num)).mp h
  rw [this, mul_one]

/-- C118.  Referring to another equinox is the rotation of precession, by the angles of package precess from the epoch 2000. -/
theorem C118_equinox (e : ℝ → ℝ × ℝ × ℝ) (jde epoch : ℝ) :
    let a := Precess.precAngles 2000 epoch
    asVec (PositionEquinox e jde epoch) = rotZ a.2.1 (rotY (-a.2.2) (rotZ a.1 (asVec (PositionJ2000 e jde)))) := by
  intro a
  have ha : angles epoch = a := by
    show _ = Precess.precAngles 2000 epoch
    rw [C51_angles]
    unfold angles hornerR
    simp only [List.foldr]
    refine Prod.ext ?_ (Prod.ext ?_ ?_) <;> (norm_num; ring)
  unfold PositionEquinox
  dsimp only
  rw [ha]
  unfold asVec turn
  rw [rotZ_vec, rotY_vec, rotZ_vec, cos_neg, sin_neg]
  apply vec_eq <;> ring

/-- C118.  So the distance of the Sun does not depend on the equinox, and the epoch 2000 changes nothing. -/
theorem C118_norm (e : ℝ → ℝ × ℝ × ℝ) (jde epoch : ℝ) :
    ‖asVec (PositionEquinox e jde epoch)‖ = ‖asVec (PositionJ2000 e jde)‖ ∧
    PositionEquinox e jde 2000 = PositionJ2000 e jde := by
  constructor
  · have h := C118_equinox e jde epoch
    dsimp only at h
    rw [h]
    have : ∀ v w : V3, inner ℝ v v = inner ℝ w w → ‖v‖ = ‖w‖ := by
      intro v w hvw
      rw [real_inner_self_eq_norm_sq, real_inner_self_eq_norm_sq] at hvw
      exact (sq_eq_sq₀ (norm_nonneg _) (norm_nonneg _)).mp hvw
    apply this
    rw [inner_rotZ, inner_rotY, inner_rotZ]
  · unfold PositionEquinox angles turn
    simp

/-- C118.  The matrix for J2000 keeps distances to 10⁻¹². -/
theorem C118_J2000 (e : ℝ → ℝ × ℝ × ℝ) (jde : ℝ) :
    |‖asVec (PositionJ2000 e jde)‖ ^ 2 - (e jde).2.2 ^ 2| ≤ 3e-12 * (e jde).2.2 ^ 2 := by
  have h : ‖asVec (xyz e jde)‖ ^ 2 = (e jde).2.2 ^ 2 := by
    rw [C118_xyz, norm_neg, norm_smul, norm_dir, mul_one, norm_eq_abs, sq_abs]
  rw [← h]
  unfold PositionJ2000
  dsimp only
  unfold asVec
  rw [← real_inner_self_eq_norm_sq, ← real_inner_self_eq_norm_sq, inner_vec, inner_vec]
  dsimp only
  generalize (xyz e jde).1 = x
  generalize (xyz e jde).2.1 = y
  generalize (xyz e jde).2.2 = z
  rw [abs_le]
  constructor <;> nlinarith [sq_nonneg (x + y), sq_nonneg (x - y), sq_nonneg (x + z), sq_nonneg (x - z), sq_nonneg (y + z), sq_nonneg (y - z), sq_nonneg x, sq_nonneg y, sq_nonneg z]

end Verif.Props
