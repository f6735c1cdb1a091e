import Verif.Props.PhaseMoon
import Verif.Props.Illum
import Verif.Props.MoonPos
/-
C172: the phase angle of the Moon computed from the date alone against the one computed from the positions of the Moon and the Sun.
-/
namespace Verif.Props

open Real Verif.Spec Verif.Go Verif.Model Verif.Lemmas Verif.Lemmas.PolyQ Verif.Lemmas.Laurent

/-! Arguments: the code has integer quotients, 0, for the coefficients of the third and fourth powers. -/

def rX : List ℚ := [218.3164477 - 280.46646 + 0.0057 - 297.8501921 + 360, 445267.11140421 - 445267.1114034, -0.0018818 + 0.0018819, 1 / 538841, -1 / 65194000]
def rD : List ℚ := [0, 0, 0, 1 / 545868, -1 / 113065000]
def rM : List ℚ := [0, 0, 0, 1 / 24490000]
def rP : List ℚ := [0, 0, 0, 1 / 69699, -1 / 14712000]
theorem rX_l1 : PolyQ.l1 (pcomp rX [0, 1001 / 100]) ≤ 76 / 10000 := by decide +kernel
theorem rD_l1 : PolyQ.l1 (pcomp rD [0, 1001 / 100]) ≤ 2 / 1000 := by decide +kernel
theorem rM_l1 : PolyQ.l1 (pcomp rM [0, 1001 / 100]) ≤ 1 / 1000 := by decide +kernel
theorem rP_l1 : PolyQ.l1 (pcomp rP [0, 1001 / 100]) ≤ 152 / 10000 := by decide +kernel

noncomputable def angD (T : ℝ) : ℝ := deg * hornerR T [297.8501921, 445267.1114034, -0.0018819]
noncomputable def angM (T : ℝ) : ℝ := deg * hornerR T [357.5291092, 35999.0502909, -0.0001535]
noncomputable def angP (T : ℝ) : ℝ := deg * hornerR T [134.9633964, 477198.8675055, 0.0087414]

theorem angD_eq (T : ℝ) : Moonposition.argD T - angD T = deg * PolyQ.ev rD T := by
  simp only [Moonposition.argD, angD, hornerR, List.foldr, PolyQ.ev, rD]; push_cast; ring
theorem angM_eq (T : ℝ) : Moonposition.argM T - angM T = deg * PolyQ.ev rM T := by
  simp only [Moonposition.argM, angM, hornerR, List.foldr, PolyQ.ev, rM]; push_cast; ring
theorem angP_eq (T : ℝ) : Moonposition.argM' T - angP T = deg * PolyQ.ev rP T := by
  simp only [Moonposition.argM', angP, hornerR, List.foldr, PolyQ.ev, rP]; push_cast; ring

/-- The series of the code without reductions to one turn. -/
theorem phase3_eq (jde : ℝ) : ∃ j : ℤ, Moonillum.PhaseAngle3 jde = π - angD (J2000Century jde) + j * (2 * π) +
    deg * (-6.289 * sin (angP (J2000Century jde)) + 2.1 * sin (angM (J2000Century jde)) - 1.274 * sin (2 * angD (J2000Century jde) - angP (J2000Century jde)) -
      0.658 * sin (2 * angD (J2000Century jde)) - 0.214 * sin (2 * angP (J2000Century jde)) - 0.11 * sin (angD (J2000Century jde))) := by
  unfold Moonillum.PhaseAngle3
  dsimp only
  have z1 : quo 1 545868 = 0 := by decide
  have z2 : quo (-1) 113065000 = 0 := by decide
  have z3 : quo 1 24490000 = 0 := by decide
  have z4 : quo 1 69699 = 0 := by decide
  have z5 : quo (-1) 14712000 = 0 := by decide
  rw [z1, z2, z3, z4, z5]
  have f1 : deg * hornerR (J2000Century jde) [297.8501921, 445267.1114034, -0.0018819, ((0 : ℤ) : ℝ), ((0 : ℤ) : ℝ)] = angD (J2000Century jde) := by
    unfold angD hornerR; simp only [List.foldr]; push_cast; ring
  have f2 : deg * hornerR (J2000Century jde) [357.5291092, 35999.0502909, -0.0001535, ((0 : ℤ) : ℝ)] = angM (J2000Century jde) := by
    unfold angM hornerR; simp only [List.foldr]; push_cast; ring
  have f3 : deg * hornerR (J2000Century jde) [134.9633964, 477198.8675055, 0.0087414, ((0 : ℤ) : ℝ), ((0 : ℤ) : ℝ)] = angP (J2000Century jde) := by
    unfold angP hornerR; simp only [List.foldr]; push_cast; ring
  rw [f1, f2, f3]
  obtain ⟨-, -, a, ha⟩ := mod1_eq (angD (J2000Century jde))
  obtain ⟨-, -, b, hb⟩ := mod1_eq (angM (J2000Century jde))
  obtain ⟨-, -, c, hc⟩ := mod1_eq (angP (J2000Century jde))
  generalize mod1 (angD (J2000Century jde)) = D at *
  generalize mod1 (angM (J2000Century jde)) = M at *
  generalize mod1 (angP (J2000Century jde)) = P at *
  refine ⟨a, ?_⟩
  rw [ha, hb, hc, sin_add_int_mul_two_pi, sin_add_int_mul_two_pi, sin_add_int_mul_two_pi,
    show 2 * (D + a * (2 * π)) - (P + c * (2 * π)) = 2 * D - P + ((2 * a - c : ℤ) : ℝ) * (2 * π) by push_cast; ring, sin_add_int_mul_two_pi,
    show 2 * (D + a * (2 * π)) = 2 * D + ((2 * a : ℤ) : ℝ) * (2 * π) by push_cast; ring, sin_add_int_mul_two_pi,
    show 2 * (P + c * (2 * π)) = 2 * P + ((2 * c : ℤ) : ℝ) * (2 * π) by push_cast; ring, sin_add_int_mul_two_pi]
  unfold series
  simp only [List.map_cons, List.map_nil, List.sum_cons, List.sum_nil]
  ring

/-! The remaining rows of the table -/

def restL : List Tm := ((Moonposition.ta.take 11).drop 5 ++ Moonposition.ta.drop 12).map rowT
theorem restL_l1 : Laurent.l1 restL ≤ 543522 := by decide +kernel
theorem restL_e : emax2 restL = true := by decide +kernel

theorem ta_split : Moonposition.ta = [⟨0, 0, 1, 0, 6288774, -20905355⟩, ⟨2, 0, -1, 0, 1274027, -3699111⟩, ⟨2, 0, 0, 0, 658314, -2955968⟩,
   ⟨0, 0, 2, 0, 213618, -569925⟩, ⟨0, 1, 0, 0, -185116, 48888⟩] ++ ((Moonposition.ta.take 11).drop 5 ++ ([⟨1, 0, 0, 0, -34720, 108743⟩] ++ Moonposition.ta.drop 12)) := rfl

theorem main_split (T : ℝ) : sinS (pt T) (Moonposition.ta.map rowT) = 6288774 * sin (Moonposition.argM' T) +
    1274027 * sin (2 * Moonposition.argD T - Moonposition.argM' T) + 658314 * sin (2 * Moonposition.argD T) + 213618 * sin (2 * Moonposition.argM' T) -
    185116 * Moonposition.ecc T * sin (Moonposition.argM T) - 34720 * sin (Moonposition.argD T) + sinS (pt T) restL := by
  rw [ta_split]
  unfold restL
  simp only [List.map_append, sinS_append, List.map_cons, List.map_nil, sinS_cons]
  simp only [rowT, pt, Tm.ang, Int.natAbs_zero, Int.natAbs_one, pow_zero, pow_one, mul_one, Int.cast_zero, Int.cast_one, Int.cast_neg, Int.cast_ofNat,
    zero_mul, zero_add, add_zero, one_mul, neg_mul]
  have : sinS ⟨Moonposition.argD T, Moonposition.argM T, Moonposition.argM' T, Moonposition.argF T, Moonposition.ecc T⟩ [] = 0 := by simp [sinS]
  rw [this, show 2 * Moonposition.argD T + -Moonposition.argM' T = 2 * Moonposition.argD T - Moonposition.argM' T by ring]
  ring

theorem sin_mid {a b c d : ℝ} (h : a - b = deg * c) (hc : |c| ≤ d) : |sin a - sin b| ≤ 0.0174533 * d := by
  obtain ⟨d0, d1⟩ := deg_small
  refine (sin_lip a b).trans ?_
  rw [h, abs_mul, abs_of_pos d0]
  exact mul_le_mul d1 hc (abs_nonneg _) (by norm_num)

set_option maxHeartbeats 800000 in
/-- The angle against the elongation. -/
theorem phase3_elong (jde : ℝ) (hT : |J2000Century jde| ≤ 10) : ∃ j : ℤ, |Moonillum.PhaseAngle3 jde - (π - elong (J2000Century jde) -
    0.147 * deg * sin (elong (J2000Century jde))) - j * (2 * π)| ≤ 0.703 * deg := by
  obtain ⟨j, hj⟩ := phase3_eq jde
  rw [hj]
  clear hj
  generalize J2000Century jde = T at *
  obtain ⟨d0, d1⟩ := deg_small
  have hT' : |T| ≤ 10.01 := hT.trans (by norm_num)
  have x1 := scaled rX_l1 hT'
  have y1 := scaled rD_l1 hT'
  have y2 := scaled rM_l1 hT'
  have y3 := scaled rP_l1 hT'
  have S1 := center_rows hT'
  have S2 := suml_rows T
  have hE := ecc_one hT'
  have hE3 : |(pt T).E| ≤ 1.03 := by
    show |Moonposition.ecc T| ≤ 1.03
    rw [abs_le] at *; norm_num at hE ⊢; constructor <;> linarith [hE.1, hE.2]
  have R := sinS_abs (pt T) restL hE3 restL_e
  have R2 : (1.061 : ℝ) * (Laurent.l1 restL : ℝ) ≤ 576677 := by
    have : (Laurent.l1 restL : ℝ) ≤ 543522 := by exact_mod_cast restL_l1
    refine (mul_le_mul_of_nonneg_left this (by norm_num)).trans (by norm_num)
  replace R := R.trans R2
  have C3 := sinS_abs (pt T) [⟨0, 2, 0, 0, 2, -19993⟩, ⟨0, 3, 0, 0, 0, -289⟩] hE3 (by decide)
  have C4 : (1.061 : ℝ) * (Laurent.l1 [⟨0, 2, 0, 0, 2, -19993⟩, ⟨0, 3, 0, 0, 0, -289⟩] : ℝ) ≤ 21520 := by
    simp only [Laurent.l1]; norm_num
  replace C3 := C3.trans C4
  have hC : sinS (pt T) [⟨0, 1, 0, 0, 1, -1914602⟩, ⟨0, 2, 0, 0, 2, -19993⟩, ⟨0, 3, 0, 0, 0, -289⟩] =
      -1914602 * Moonposition.ecc T * sin (Moonposition.argM T) + sinS (pt T) [⟨0, 2, 0, 0, 2, -19993⟩, ⟨0, 3, 0, 0, 0, -289⟩] := by
    rw [sinS_cons]
    simp only [pt, Tm.ang]
    push_cast
    rw [show (0 : ℝ) * Moonposition.argD T + 1 * Moonposition.argM T + 0 * Moonposition.argM' T + 0 * Moonposition.argF T = Moonposition.argM T by ring, pow_one]
  rw [hC] at S1
  rw [main_split] at S2
  -- the elongation
  have hX : elong T - angD T + 2 * π = deg * (PolyQ.ev rX T + Moonposition.suml T * 1e-6 - Solar.center T / deg) := by
    rw [mul_sub, mul_div_cancel₀ _ d0.ne']
    simp only [elong, angD, Moonposition.meanLon, Solar.meanLon, hornerR, List.foldr, PolyQ.ev, rX]; push_cast; unfold deg; ring
  -- changes of the sines
  have p1 := sin_mid (angP_eq T) y3
  have p2 := sin_mid (angM_eq T) y2
  have p3 := sin_mid (a := 2 * Moonposition.argD T - Moonposition.argM' T) (b := 2 * angD T - angP T) (c := 2 * PolyQ.ev rD T - PolyQ.ev rP T) (d := 0.0192)
    (by linear_combination 2 * angD_eq T - angP_eq T) (by clear * - y1 y3; rw [abs_le] at *; push_cast at *; norm_num at *; constructor <;> linarith)
  have p4 := sin_mid (a := 2 * Moonposition.argD T) (b := 2 * angD T) (c := 2 * PolyQ.ev rD T) (d := 0.004)
    (by linear_combination 2 * angD_eq T) (by clear * - y1; rw [abs_le] at *; push_cast at *; norm_num at *; constructor <;> linarith)
  have p5 := sin_mid (a := 2 * Moonposition.argM' T) (b := 2 * angP T) (c := 2 * PolyQ.ev rP T) (d := 0.0304)
    (by linear_combination 2 * angP_eq T) (by clear * - y3; rw [abs_le] at *; push_cast at *; norm_num at *; constructor <;> linarith)
  have p6 := sin_mid (angD_eq T) y1
  have q1 := abs_le.1 (abs_sin_le_one (angP T))
  have q2 := abs_le.1 (abs_sin_le_one (angM T))
  have q3 := abs_le.1 (abs_sin_le_one (2 * angD T - angP T))
  have q4 := abs_le.1 (abs_sin_le_one (2 * angD T))
  have q5 := abs_le.1 (abs_sin_le_one (2 * angP T))
  have q6 := abs_le.1 (abs_sin_le_one (angD T))
  have w : |(1 - Moonposition.ecc T) * sin (Moonposition.argM T)| ≤ 0.026 := by
    rw [abs_mul, abs_sub_comm]
    exact (mul_le_mul hE (abs_sin_le_one _) (abs_nonneg _) (by norm_num)).trans (by norm_num)
  have w2 : Moonposition.ecc T * sin (Moonposition.argM T) = sin (Moonposition.argM T) - (1 - Moonposition.ecc T) * sin (Moonposition.argM T) := by ring
  rw [mul_assoc, w2] at S1 S2
  generalize (1 - Moonposition.ecc T) * sin (Moonposition.argM T) = m at *
  generalize sin (Moonposition.argM' T) = a1 at *
  generalize sin (Moonposition.argM T) = a2 at *
  generalize sin (2 * Moonposition.argD T - Moonposition.argM' T) = a3 at *
  generalize sin (2 * Moonposition.argD T) = a4 at *
  generalize sin (2 * Moonposition.argM' T) = a5 at *
  generalize sin (Moonposition.argD T) = a6 at *
  generalize sin (angP T) = b1 at *
  generalize sin (angM T) = b2 at *
  generalize sin (2 * angD T - angP T) = b3 at *
  generalize sin (2 * angD T) = b4 at *
  generalize sin (2 * angP T) = b5 at *
  generalize sinS (pt T) restL = r at *
  generalize sinS (pt T) [⟨0, 2, 0, 0, 2, -19993⟩, ⟨0, 3, 0, 0, 0, -289⟩] = r2 at *
  generalize Moonposition.suml T = l at *
  generalize Solar.center T / deg = c at *
  generalize PolyQ.ev rX T = x at *
  have big : |x + l * 1e-6 - c| ≤ 11.4 := by
    clear hX
    clear * - S1 S2 x1 m w p1 p2 p3 p4 p5 p6 q1 q2 q3 q4 q5 q6 R C3
    rw [abs_le] at *; push_cast at *; norm_num at *
    constructor <;> linarith
  have sd : |sin (angD T) - sin (elong T)| ≤ 0.199 := by
    rw [abs_sub_comm]
    have e : sin (elong T) = sin (angD T + deg * (x + l * 1e-6 - c)) := by
      rw [← hX, show angD T + (elong T - angD T + 2 * π) = elong T + 2 * π by ring, sin_add_two_pi]
    rw [e]
    refine (sin_lip _ _).trans ?_
    rw [add_sub_cancel_left, abs_mul, abs_of_pos d0]
    exact (mul_le_mul d1 big (abs_nonneg _) (by norm_num)).trans (by norm_num)
  refine ⟨j - 1, ?_⟩
  have e2 : π - angD T + j * (2 * π) + deg * (-6.289 * b1 + 2.1 * b2 - 1.274 * b3 - 0.658 * b4 - 0.214 * b5 - 0.11 * sin (angD T)) -
      (π - elong T - 0.147 * deg * sin (elong T)) - ((j - 1 : ℤ) : ℝ) * (2 * π) =
      deg * (x + l * 1e-6 - c + (-6.289 * b1 + 2.1 * b2 - 1.274 * b3 - 0.658 * b4 - 0.214 * b5 - 0.11 * sin (angD T)) + 0.147 * sin (elong T)) := by
    push_cast
    linear_combination hX
  rw [e2, abs_mul, abs_of_pos d0, mul_comm]
  refine mul_le_mul_of_nonneg_right ?_ d0.le
  have z := abs_le.1 (abs_sin_le_one (elong T))
  clear e2 hX big
  generalize sin (angD T) = b6 at *
  generalize sin (elong T) = s at *
  clear * - S1 S2 x1 m w p1 p2 p3 p4 p5 p6 q1 q2 q3 q4 q5 q6 R C3 sd z
  rw [abs_le] at *; push_cast at *; norm_num at *
  constructor <;> linarith

/-! The illuminated fraction -/

/-- The cosine of the phase angle to the second order in the ratio of the distances. -/
theorem cos_pa {Δ R c : ℝ} (hR : 0 < R) (h0 : 0 ≤ Δ / R) (h1 : Δ / R ≤ 0.003) (hc : |c| ≤ 1) :
    |cos (Moonillum.pa Δ R c) - (-c + Δ / R * (1 - c ^ 2))| ≤ 0.00003 := by
  obtain ⟨c0, c1⟩ := abs_le.1 hc
  set q := Δ / R with hq
  have hΔ : Δ = q * R := by rw [hq]; field_simp
  set w := 1 - 2 * q * c + q ^ 2 with hw
  have wq : (1 - q) ^ 2 ≤ w := by rw [hw]; nlinarith
  have wq' : w ≤ (1 + q) ^ 2 := by rw [hw]; nlinarith
  have w0 : 0 < w := lt_of_lt_of_le (by nlinarith) wq
  have hd : Δ ^ 2 - 2 * Δ * R * c + R ^ 2 = R ^ 2 * w := by rw [hΔ, hw]; ring
  have hd' : Δ ^ 2 - 2 * Δ * R * c + R ^ 2 ≠ 0 := by rw [hd]; positivity
  set S := √w with hS
  have hS2 : S ^ 2 = w := sq_sqrt w0.le
  have s1 : 1 - q ≤ S := by
    rw [hS]; exact le_sqrt_of_sq_le wq
  have s2 : S ≤ 1 + q := by
    rw [hS, sqrt_le_left (by linarith)]; exact wq'
  have hsq : √(Δ ^ 2 - 2 * Δ * R * c + R ^ 2) = R * S := by
    rw [hd, sqrt_mul (by positivity), sqrt_sq hR.le]
  have S0 : 0 < S := by linarith
  have hval : (Δ - R * c) / (R * S) = (q - c) / S := by
    rw [hΔ]; field_simp
  have hin : |(q - c) / S| ≤ 1 := by
    rw [abs_div, abs_of_pos S0, div_le_one S0]
    refine abs_le_of_sq_le_sq ?_ S0.le
    rw [hS2, hw]; nlinarith
  rw [pa_eq hR.le c0 c1 hd', hsq, hval, cos_arccos (abs_le.1 hin).1 (abs_le.1 hin).2]
  have e : (q - c) / S - (-c + q * (1 - c ^ 2)) = q * ((S - 1) + q * c - (1 - c ^ 2) * (3 * (S - 1) + (S - 1) ^ 2)) / ((1 + S) * S) := by
    have h : (q - c) / S * ((1 + S) * S) = (q - c) * (1 + S) := by field_simp
    rw [eq_div_iff (by positivity), sub_mul, h]
    rw [hw] at hS2
    linear_combination c * hS2
  rw [e, abs_div, abs_of_pos (by positivity : 0 < (1 + S) * S), div_le_iff₀ (by positivity), abs_mul, abs_of_nonneg h0]
  have k1 : |S - 1| ≤ q := by rw [abs_le]; constructor <;> linarith
  have k2 : |q * c| ≤ q := by
    rw [abs_mul, abs_of_nonneg h0]
    exact mul_le_of_le_one_right h0 hc
  have k3 : |(1 - c ^ 2) * (3 * (S - 1) + (S - 1) ^ 2)| ≤ 3 * q + q ^ 2 := by
    have u0 : 0 ≤ 1 - c ^ 2 := by nlinarith
    have u1 : 1 - c ^ 2 ≤ 1 := by nlinarith [sq_nonneg c]
    rw [abs_mul, abs_of_nonneg u0]
    have v : |3 * (S - 1) + (S - 1) ^ 2| ≤ 3 * q + q ^ 2 := by
      refine (abs_add_le _ _).trans ?_
      rw [abs_mul, abs_pow, Nat.abs_ofNat]
      have : |S - 1| ^ 2 ≤ q ^ 2 := by gcongr
      linarith
    exact (mul_le_mul u1 v (abs_nonneg _) zero_le_one).trans (by rw [one_mul])
  have k4 : |(S - 1) + q * c - (1 - c ^ 2) * (3 * (S - 1) + (S - 1) ^ 2)| ≤ 5 * q + q ^ 2 := by
    refine (abs_sub _ _).trans ?_
    have := abs_add_le (S - 1) (q * c)
    linarith
  have k5 : q * |(S - 1) + q * c - (1 - c ^ 2) * (3 * (S - 1) + (S - 1) ^ 2)| ≤ 0.003 * (5 * 0.003 + 0.003 ^ 2) :=
    mul_le_mul h1 (k4.trans (by gcongr)) (abs_nonneg _) (by norm_num)
  have k6 : 1.98 ≤ (1 + S) * S := by nlinarith
  refine k5.trans ?_
  norm_num at k6 ⊢
  linarith

/-- **C172.**  `moonillum.PhaseAngle3`, from the date alone, is 180° less the elongation in longitude (of packages moonposition and solar, with 0.0057° for the
aberration) less the angle at the Sun between the Earth and the Moon, within 0.703° and modulo whole turns, for the years 1000 to 3000. -/
theorem C172_angle (jde : ℝ) (hT : |J2000Century jde| ≤ 10) :
    let e := (Moonposition.Position jde).1 - (Solar.TrueLon (J2000Century jde)).1 + 0.0057 * deg
    Congr (Moonillum.PhaseAngle3 jde) (π - e - 0.147 * deg * sin e) 0.703 := by
  intro e
  obtain ⟨j, hj⟩ := phase3_elong jde hT
  obtain ⟨i, hi⟩ := elong_eq jde
  refine ⟨j + i, ?_⟩
  have he : e = elong (J2000Century jde) + i * (2 * π) := hi
  rw [he, sin_add_int_mul_two_pi]
  push_cast
  rw [show ∀ a b c d f : ℝ, a - (π - (b + c) - d) - (f + i) * (2 * π) = a - (π - b - d) - f * (2 * π) + (c - i * (2 * π)) by intros; ring]
  rw [sub_self, add_zero]
  exact hj

theorem radius_range {T : ℝ} (hT : |T| ≤ 10) : 0.982 ≤ Solar.Radius T ∧ Solar.Radius T ≤ 1.018 := by
  have hE : 0.016 ≤ Solar.Eccentricity T ∧ Solar.Eccentricity T ≤ 0.0172 := by
    have e : Solar.Eccentricity T = 0.016708634 - 0.000042037 * T - 0.0000001267 * T ^ 2 := by
      simp only [Solar.Eccentricity, hornerR, List.foldr]; ring
    have h2 : T ^ 2 ≤ 100 := by rw [← sq_abs]; nlinarith [abs_nonneg T]
    rw [e]
    rw [abs_le] at hT
    norm_num at *
    constructor <;> nlinarith [sq_nonneg T]
  unfold Solar.Radius
  dsimp only
  generalize Solar.Eccentricity T = e at *
  have c1 := cos_le_one (Solar.TrueLon T).2
  have c0 := neg_one_le_cos (Solar.TrueLon T).2
  generalize cos (Solar.TrueLon T).2 = c at *
  obtain ⟨h0, h1⟩ := hE
  have p : 0 < 1 + e * c := by nlinarith
  rw [le_div_iff₀ p, div_le_iff₀ p]
  norm_num at *
  constructor <;> nlinarith

theorem cos_phase3 {P e q0 : ℝ} {j : ℤ} (h : |P - (π - e - q0 * sin e) - j * (2 * π)| ≤ 0.703 * deg) (h0 : 0 ≤ q0) (h1 : q0 ≤ 0.0026) :
    |cos P - (-cos e + q0 * (1 - cos e ^ 2))| ≤ 0.012276 := by
  obtain ⟨d0, d1⟩ := deg_small
  have a1 : |cos P - cos (π - e - q0 * sin e)| ≤ 0.7031 * 0.0174533 := by
    rw [← cos_sub_int_mul_two_pi P j]
    refine (abs_cos_sub_cos _ _).trans ?_
    rw [show P - j * (2 * π) - (π - e - q0 * sin e) = P - (π - e - q0 * sin e) - j * (2 * π) by ring]
    refine h.trans ?_
    norm_num at d1 ⊢; linarith
  have hh : |q0 * sin e| ≤ 0.0026 := by
    rw [abs_mul, abs_of_nonneg h0]
    exact (mul_le_mul h1 (abs_sin_le_one e) (abs_nonneg _) (by norm_num)).trans (by norm_num)
  have a2 := sin_taylor2 (e + π / 2) (h := q0 * sin e) (hh.trans (by norm_num))
  rw [show e + π / 2 + q0 * sin e = e + q0 * sin e + π / 2 by ring, sin_add_pi_div_two, sin_add_pi_div_two, cos_add_pi_div_two] at a2
  have a3 : (5 : ℝ) / 24 * |q0 * sin e| ^ 3 ≤ 5 / 24 * 0.0026 ^ 3 := by gcongr
  have a4 : |(q0 * sin e) ^ 2 / 2 * cos e| ≤ 0.0026 ^ 2 / 2 := by
    rw [abs_mul, abs_div, abs_pow, abs_two]
    have : |q0 * sin e| ^ 2 ≤ 0.0026 ^ 2 := by gcongr
    exact (mul_le_mul (div_le_div_of_nonneg_right this (by norm_num)) (abs_cos_le_one e) (abs_nonneg _) (by norm_num)).trans (by rw [mul_one])
  have a5 : cos (π - e - q0 * sin e) = -cos (e + q0 * sin e) := by
    rw [show π - e - q0 * sin e = π - (e + q0 * sin e) by ring, cos_pi_sub]
  have a6 : q0 * (1 - cos e ^ 2) = q0 * sin e * sin e := by
    rw [← sin_sq]; ring
  rw [a5] at a1
  rw [a6]
  replace a2 := a2.trans a3
  generalize (q0 * sin e) ^ 2 / 2 * cos e = u at *
  clear a3 a5 a6 h hh
  rw [show q0 * sin e * -sin e = -(q0 * sin e * sin e) by ring] at a2
  generalize q0 * sin e * sin e = v at *
  rw [abs_le] at *
  norm_num at *
  constructor <;> linarith [a1.1, a1.2, a2.1, a2.2, a4.1, a4.2]

/-- **C172.**  The illuminated fraction of the disk from `PhaseAngle3` is within 0.0092 of the one from `PhaseAngleEcl` with the position of the Moon of package
moonposition and the apparent longitude and distance of the Sun of package solar. -/
theorem C172_illuminated (jde : ℝ) (hT : |J2000Century jde| ≤ 10) :
    let m := Moonposition.Position jde
    let T := J2000Century jde
    |Illuminated (Moonillum.PhaseAngle3 jde) -
      Illuminated (Moonillum.PhaseAngleEcl m.1 m.2.1 m.2.2 (Solar.ApparentLongitude T) (Solar.Radius T * Semidiameter.AU))| ≤ 0.0092 := by
  intro m T
  obtain ⟨d0, d1⟩ := deg_small
  obtain ⟨d2, d3⟩ := deg_num
  obtain ⟨j, hj⟩ := phase3_elong jde hT
  obtain ⟨i, hi⟩ := elong_eq jde
  obtain ⟨hβ, hΔ0, hΔ1, -⟩ := C126_bounds jde (hT.trans (by norm_num))
  obtain ⟨hR0, hR1⟩ := radius_range hT
  have P := cos_phase3 hj (by positivity) (by norm_num at d1 ⊢; linarith)
  set R := Solar.Radius T * Semidiameter.AU with hR
  have AUr : ((Semidiameter.AU : ℤ) : ℝ) = 149597870 := by unfold Semidiameter.AU; norm_num
  have R0 : 0.982 * 149597870 ≤ R := by rw [hR, AUr]; exact mul_le_mul_of_nonneg_right hR0 (by norm_num)
  have R1 : R ≤ 1.018 * 149597870 := by rw [hR, AUr]; exact mul_le_mul_of_nonneg_right hR1 (by norm_num)
  have Rp : 0 < R := lt_of_lt_of_le (by norm_num) R0
  have q1 : m.2.2 / R ≤ 0.00283 := by
    rw [div_le_iff₀ Rp]
    have := mul_le_mul_of_nonneg_left R0 (by norm_num : (0 : ℝ) ≤ 0.00283)
    refine hΔ1.le.trans (le_trans (by norm_num) this)
  have q2 : 0.00233 ≤ m.2.2 / R := by
    rw [le_div_iff₀ Rp]
    have := mul_le_mul_of_nonneg_left R1 (by norm_num : (0 : ℝ) ≤ 0.00233)
    refine (this.trans (by norm_num)).trans hΔ0.le
  set e := elong T with he
  -- the elongation of the code
  have f1 : |cos (m.1 - Solar.ApparentLongitude T) - cos e| ≤ 0.0048 * 0.0174533 := by
    have : m.1 - Solar.ApparentLongitude T = e + (-0.00001 + 0.00478 * sin (Solar.node T)) * deg + i * (2 * π) := by
      unfold Solar.ApparentLongitude
      linear_combination hi
    rw [this, cos_add_int_mul_two_pi]
    refine (abs_cos_sub_cos _ _).trans ?_
    rw [add_sub_cancel_left, abs_mul, abs_of_pos d0]
    refine mul_le_mul ?_ d1 d0.le (by norm_num)
    have s1 := sin_le_one (Solar.node T)
    have s2 := neg_one_le_sin (Solar.node T)
    rw [abs_le]; norm_num; constructor <;> linarith
  have f2 : 1 - cos m.2.1 ≤ 0.005668 := by
    have k := one_sub_sq_div_two_le_cos (x := m.2.1)
    have b : |m.2.1| ≤ 0.106466 := hβ.trans (by norm_num at d1 ⊢; linarith)
    have b2 : m.2.1 ^ 2 ≤ 0.106466 ^ 2 := by rw [← sq_abs]; gcongr
    norm_num at b2 ⊢; linarith
  set c := Moonillum.cψEcl m.1 m.2.1 (Solar.ApparentLongitude T) with hc
  have cc : c = cos m.2.1 * cos (m.1 - Solar.ApparentLongitude T) := rfl
  have c1 : |c| ≤ 1 := by
    rw [cc, abs_mul]
    exact mul_le_one₀ (abs_cos_le_one _) (abs_nonneg _) (abs_cos_le_one _)
  have f3 : |c - cos e| ≤ 0.005752 := by
    have : c - cos e = -((1 - cos m.2.1) * cos (m.1 - Solar.ApparentLongitude T)) + (cos (m.1 - Solar.ApparentLongitude T) - cos e) := by rw [cc]; ring
    rw [this]
    refine (abs_add_le _ _).trans ?_
    rw [abs_neg, abs_mul, abs_of_nonneg (by linarith [cos_le_one m.2.1] : 0 ≤ 1 - cos m.2.1)]
    have := mul_le_mul f2 (abs_cos_le_one (m.1 - Solar.ApparentLongitude T)) (abs_nonneg _) (by norm_num)
    refine (add_le_add this f1).trans (by norm_num)
  have Q := cos_pa (c := c) Rp (by linarith) (q1.trans (by norm_num)) c1
  have E1 : Illuminated (Moonillum.PhaseAngle3 jde) - Illuminated (Moonillum.PhaseAngleEcl m.1 m.2.1 m.2.2 (Solar.ApparentLongitude T) R) =
      (cos (Moonillum.PhaseAngle3 jde) - cos (Moonillum.pa m.2.2 R c)) * 0.5 := by
    unfold Illuminated Moonillum.PhaseAngleEcl; ring
  rw [E1]
  generalize m.2.2 / R = q at *
  have ce : |cos e| ≤ 1 := abs_cos_le_one e
  clear E1 f1 hi hj
  generalize cos (Moonillum.PhaseAngle3 jde) = x at *
  generalize cos (Moonillum.pa m.2.2 R c) = y at *
  generalize cos e = g at *
  have f4 : |q * (c ^ 2 - g ^ 2)| ≤ 0.0000330 := by
    rw [show c ^ 2 - g ^ 2 = (c - g) * (c + g) by ring, abs_mul, abs_mul, abs_of_nonneg (by linarith : 0 ≤ q)]
    have u : |c + g| ≤ 2 := (abs_add_le _ _).trans (by linarith)
    have := mul_le_mul q1 (mul_le_mul f3 u (abs_nonneg _) (by norm_num)) (by positivity) (by norm_num)
    exact this.trans (by norm_num)
  have f5 : |(0.147 * deg - q) * (1 - g ^ 2)| ≤ 0.000265 := by
    rw [abs_mul]
    have u : |0.147 * deg - q| ≤ 0.000265 := by
      rw [abs_le]; norm_num at *; constructor <;> linarith
    have v : |1 - g ^ 2| ≤ 1 := by
      have : g ^ 2 ≤ 1 := by rw [← sq_abs]; exact pow_le_one₀ (abs_nonneg _) ce
      rw [abs_le]; constructor <;> nlinarith [sq_nonneg g]
    exact (mul_le_mul u v (abs_nonneg _) (by norm_num)).trans (by norm_num)
  have e3 : 0.147 * deg * (1 - g ^ 2) = q * (1 - c ^ 2) + (0.147 * deg - q) * (1 - g ^ 2) + q * (c ^ 2 - g ^ 2) := by ring
  rw [e3] at P
  generalize (0.147 * deg - q) * (1 - g ^ 2) = u at *
  generalize q * (c ^ 2 - g ^ 2) = v at *
  generalize q * (1 - c ^ 2) = w at *
  clear * - P Q f3 f4 f5
  rw [abs_mul, abs_of_pos (by norm_num : (0 : ℝ) < 0.5)]
  have : |x - y| ≤ 0.0184 := by
    rw [abs_le] at *; norm_num at *
    constructor <;> linarith
  norm_num at *; linarith

/-- The example of the book, 1992 April 12. -/
example : |J2000Century 2448724.5| ≤ 10 := by
  unfold J2000Century
  rw [abs_le]; constructor <;> norm_num

end Verif.Props
