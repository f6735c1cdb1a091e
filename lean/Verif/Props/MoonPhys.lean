import Verif.Props.MoonPos
import Verif.Props.Coord
import Verif.Lemmas.Rotation
import Verif.Lemmas.Tangent
/-
Package moon: physical ephemeris (C128 to C131).
-/
namespace Verif.Props

open Real Verif.Spec Verif.Go Verif.Model Verif.Model.Moonposition Verif.Model.MoonPhys Verif.Lemmas

theorem mp_cons {x b B : ℝ} {l : List ℝ} (hx : |x| ≤ b) (hl : |l.sum| ≤ B - b) : |(x :: l).sum| ≤ B := by
  rw [List.sum_cons]; linarith [abs_add_le x l.sum]

theorem mp_sin (c x : ℝ) : |c * sin x| ≤ |c| := by
  rw [abs_mul]; exact mul_le_of_le_one_right (abs_nonneg _) (abs_sin_le_one x)

theorem mp_cos (c x : ℝ) : |c * cos x| ≤ |c| := by
  rw [abs_mul]; exact mul_le_of_le_one_right (abs_nonneg _) (abs_cos_le_one x)

theorem mp_sinE {E : ℝ} (h0 : 0 ≤ E) (h1 : E ≤ 1.05) (c x : ℝ) : |c * sin x * E| ≤ |c| * 1.05 := by
  rw [abs_mul, abs_of_nonneg h0]; exact mul_le_mul (mp_sin c x) h1 h0 (abs_nonneg _)

theorem rho_bound (jde : ℝ) : |(newMoon jde).ρ| ≤ 0.0619 * deg := by
  unfold newMoon
  dsimp only
  rw [abs_mul, abs_of_pos mdeg_pos]
  apply mul_le_mul_of_nonneg_right _ mdeg_pos.le
  refine mp_cons (mp_cos _ _) ?_
  refine mp_cons (mp_sin _ _) ?_
  refine mp_cons (mp_cos _ _) ?_
  refine mp_cons (mp_cos _ _) ?_
  refine mp_cons (mp_cos _ _) ?_
  refine mp_cons (mp_cos _ _) ?_
  refine mp_cons (mp_sin _ _) ?_
  refine mp_cons (mp_cos _ _) ?_
  refine mp_cons (mp_cos _ _) ?_
  refine mp_cons (mp_cos _ _) ?_
  norm_num [abs_of_pos, abs_of_neg]

theorem sigma_bound (jde : ℝ) : |(newMoon jde).σ| ≤ 0.0633 * deg := by
  unfold newMoon
  dsimp only
  rw [abs_mul, abs_of_pos mdeg_pos]
  apply mul_le_mul_of_nonneg_right _ mdeg_pos.le
  refine mp_cons (mp_sin _ _) ?_
  refine mp_cons (mp_cos _ _) ?_
  refine mp_cons (mp_sin _ _) ?_
  refine mp_cons (mp_sin _ _) ?_
  refine mp_cons (mp_sin _ _) ?_
  refine mp_cons (mp_sin _ _) ?_
  refine mp_cons (mp_cos _ _) ?_
  refine mp_cons (mp_sin _ _) ?_
  refine mp_cons (mp_sin _ _) ?_
  refine mp_cons (mp_cos _ _) ?_
  refine mp_cons (mp_sin _ _) ?_
  refine mp_cons (mp_sin _ _) ?_
  refine mp_cons (mp_cos _ _) ?_
  norm_num [abs_of_pos, abs_of_neg]

theorem tau_bound (jde : ℝ) (h : |J2000Century jde| ≤ 20) : |(newMoon jde).τ| ≤ 0.052 * deg := by
  obtain ⟨h0, h1⟩ := ecc_bound _ h
  unfold ecc at h0 h1
  unfold newMoon
  dsimp only
  rw [abs_mul, abs_of_pos mdeg_pos]
  apply mul_le_mul_of_nonneg_right _ mdeg_pos.le
  refine mp_cons (mp_sinE h0 h1 _ _) ?_
  refine mp_cons (mp_sin _ _) ?_
  refine mp_cons (mp_sin _ _) ?_
  refine mp_cons (mp_sin _ _) ?_
  refine mp_cons (mp_sin _ _) ?_
  refine mp_cons (mp_sin _ _) ?_
  refine mp_cons (mp_cos _ _) ?_
  refine mp_cons (mp_sin _ _) ?_
  refine mp_cons (mp_sin _ _) ?_
  refine mp_cons (mp_sin _ _) ?_
  refine mp_cons (mp_sin _ _) ?_
  refine mp_cons (mp_sin _ _) ?_
  refine mp_cons (mp_sin _ _) ?_
  refine mp_cons (mp_sin _ _) ?_
  refine mp_cons (mp_sin _ _) ?_
  refine mp_cons (mp_cos _ _) ?_
  refine mp_cons (mp_sin _ _) ?_
  refine mp_cons (mp_sin _ _) ?_
  refine mp_cons (mp_sin _ _) ?_
  norm_num [abs_of_pos, abs_of_neg]

/-- C128.  The optical librations are the selenographic coordinates of the Earth: seen from the Moon the Earth is opposite to the
direction of the Moon, in the frame of the lunar equator (inclined by I about the line of nodes), with longitudes counted from the
direction F + π. -/
theorem C128_optical (m : Moon) (lam β : ℝ) :
    dir ((m.optical lam β).1 + m.F + π) (m.optical lam β).2.1 = -rotX I (dir (lam - m.Ω) β) ∧
    0 ≤ (m.optical lam β).1 ∧ (m.optical lam β).1 < 2 * π ∧ |(m.optical lam β).2.1| ≤ π / 2 := by
  refine ⟨?_, (mod1_eq _).1, (mod1_eq _).2.1, abs_arcsin_le _⟩
  unfold Moon.optical
  dsimp only
  set W := lam - m.Ω
  set A := atan2 (sin W * cos β * cos I - sin β * sin I) (cos W * cos β) with hA
  have h1 := sin_sq_add_cos_sq W
  have h2 := sin_sq_add_cos_sq β
  have h3 := sin_sq_add_cos_sq I
  have hd := dir_of_xyz (x := cos W * cos β) (y := sin W * cos β * cos I - sin β * sin I) (z := sin W * cos β * sin I + sin β * cos I) (by
    linear_combination (sin W ^ 2 * cos β ^ 2 + sin β ^ 2) * h3 + cos β ^ 2 * h1 + h2)
  rw [← hA] at hd
  obtain ⟨x1, x2, x3⟩ := vec_inj hd
  have e : -sin W * cos β * sin I - sin β * cos I = -(sin W * cos β * sin I + sin β * cos I) := by ring
  rw [e, arcsin_neg]
  obtain ⟨-, -, k, hk⟩ := mod1_eq (A - m.F)
  have ek : mod1 (A - m.F) + m.F + π = A + π - k * (2 * π) := by linarith
  rw [ek]
  unfold dir
  rw [cos_neg, sin_neg, cos_sub_int_mul_two_pi, sin_sub_int_mul_two_pi, cos_add_pi, sin_add_pi, rotX_vec]
  have neg : ∀ x y z : ℝ, -(!₂[x, y, z] : V3) = !₂[-x, -y, -z] := by
    intro x y z; ext i; fin_cases i <;> simp
  rw [neg]
  apply vec_eq
  · rw [mul_neg, x1]; ring
  · rw [mul_neg, x2]; ring
  · rw [x3]; ring

theorem I_bounds : 0 < I ∧ I < 0.027 := by
  unfold I deg
  have := pi_lt_d2
  have := pi_pos
  constructor
  · positivity
  · linarith

/-- The latitude above a plane inclined by I is at most the latitude plus I. -/
theorem lib_lat_bound (m : Moon) (lam β : ℝ) (h : |β| + I < π / 2) : |(m.optical lam β).2.1| ≤ |β| + I := by
  obtain ⟨i0, i1⟩ := I_bounds
  have p := pi_gt_three
  unfold Moon.optical
  dsimp only
  set W := lam - m.Ω
  have b0 := abs_nonneg β
  have sI : 0 ≤ sin I := sin_nonneg_of_nonneg_of_le_pi i0.le (by linarith)
  have cI : 0 ≤ cos I := cos_nonneg_of_mem_Icc ⟨by linarith, by linarith⟩
  have cb : 0 ≤ cos |β| := cos_nonneg_of_mem_Icc ⟨by linarith, by linarith⟩
  have sb : 0 ≤ sin |β| := sin_nonneg_of_nonneg_of_le_pi b0 (by linarith)
  have hsb : |sin β| = sin |β| := by
    rcases abs_cases β with ⟨e, h0⟩ | ⟨e, h0⟩
    · rw [e] at sb ⊢; exact abs_of_nonneg sb
    · rw [e] at sb ⊢; rw [sin_neg] at sb ⊢; exact abs_of_nonpos (by linarith)
  have key : |-sin W * cos β * sin I - sin β * cos I| ≤ sin (|β| + I) := by
    rw [sin_add, ← hsb, cos_abs]
    rw [cos_abs] at cb
    have t := abs_sub (-sin W * cos β * sin I) (sin β * cos I)
    rw [abs_mul, abs_mul, abs_mul, abs_neg, abs_of_nonneg cb, abs_of_nonneg sI, abs_of_nonneg cI] at t
    have : |sin W| * cos β * sin I ≤ cos β * sin I := by
      have := mul_le_of_le_one_left cb (abs_sin_le_one W)
      exact mul_le_mul_of_nonneg_right this sI
    linarith
  rw [abs_le] at key ⊢
  constructor
  · rw [← neg_le_neg_iff, neg_neg, ← arcsin_neg]
    rw [arcsin_le_iff_le_sin' ⟨by linarith, by linarith⟩]
    linarith [key.1]
  · rw [arcsin_le_iff_le_sin' ⟨by linarith, by linarith⟩]
    exact key.2

theorem tan_small {x : ℝ} (h : |x| ≤ 0.14) : |tan x| ≤ 0.15 := by
  have c : 0.98 ≤ cos x := by
    have := one_sub_sq_div_two_le_cos (x := x)
    have : x ^ 2 ≤ 0.14 ^ 2 := sq_le_sq' (by linarith [abs_le.1 h]) (by linarith [abs_le.1 h])
    norm_num at this ⊢
    linarith
  rw [tan_eq_sin_div_cos, abs_div, abs_of_pos (by linarith : 0 < cos x), div_le_iff₀ (by linarith)]
  have := abs_sin_le_abs (x := x)
  nlinarith

/-- C128.  For a body within 6.2 degrees of the ecliptic, and from year 0 to 4000: the longitude returned is in (-π, π], the latitude is at
most 7.9 degrees, and the physical librations change the coordinates by less than a tenth of a degree. -/
theorem C128_lib (jde : ℝ) (hj : |J2000Century jde| ≤ 20) (lam β : ℝ) (hβ : |β| ≤ 6.2 * deg) :
    let m := newMoon jde
    (-π < (m.lib lam β).1) ∧ (m.lib lam β).1 ≤ π ∧ |(m.lib lam β).2| ≤ 7.9 * deg ∧
    |(m.lib lam β).2 - (m.optical lam β).2.1| ≤ 0.1 * deg ∧
    ∃ k : ℤ, |(m.lib lam β).1 - (m.optical lam β).1 - k * (2 * π)| ≤ 0.1 * deg := by
  intro m
  obtain ⟨i0, i1⟩ := I_bounds
  have d := mdeg_pos
  have pd : π = 180 * deg := by unfold deg; ring
  have dl : deg < 0.0175 := by unfold deg; linarith [pi_lt_d4]
  have hI : I = 1.54242 * deg := rfl
  have hr := rho_bound jde
  have hs := sigma_bound jde
  have ht := tau_bound jde hj
  have lat := lib_lat_bound m lam β (by rw [hI, pd]; linarith)
  obtain ⟨-, o1, o2, -⟩ := C128_optical m lam β
  have tb := tan_small (x := (m.optical lam β).2.1) (by rw [hI] at lat; nlinarith)
  change |m.ρ| ≤ _ at hr
  change |m.σ| ≤ _ at hs
  change |m.τ| ≤ _ at ht
  set b' := (m.optical lam β).2.1
  set A := (m.optical lam β).2.2
  set l' := (m.optical lam β).1
  have eq1 : (m.physical A b').1 = -m.τ + (m.ρ * cos A + m.σ * sin A) * tan b' := rfl
  have eq2 : (m.physical A b').2 = m.σ * cos A - m.ρ * sin A := rfl
  have comb : ∀ x y : ℝ, |x| ≤ 0.0633 * deg → |y| ≤ 0.0633 * deg → |x * cos A + y * sin A| ≤ 0.09 * deg := by
    intro x y hx hy
    apply abs_le_of_sq_le_sq _ (by positivity)
    have x2 : x ^ 2 ≤ (0.0633 * deg) ^ 2 := sq_le_sq' (by linarith [abs_le.1 hx]) (by linarith [abs_le.1 hx])
    have y2 : y ^ 2 ≤ (0.0633 * deg) ^ 2 := sq_le_sq' (by linarith [abs_le.1 hy]) (by linarith [abs_le.1 hy])
    have := sin_sq_add_cos_sq A
    have : (x * cos A + y * sin A) ^ 2 + (x * sin A - y * cos A) ^ 2 = x ^ 2 + y ^ 2 := by
      linear_combination (x ^ 2 + y ^ 2) * this
    nlinarith [sq_nonneg (x * sin A - y * cos A), mul_pos d d]
  have q2 : |(m.physical A b').2| ≤ 0.09 * deg := by
    rw [eq2, sub_eq_add_neg, ← neg_mul]
    exact comb m.σ (-m.ρ) hs (by rw [abs_neg]; linarith)
  have q1 : |(m.physical A b').1| ≤ 0.1 * deg := by
    rw [eq1]
    have c := comb m.ρ m.σ (by linarith) hs
    have := abs_add_le (-m.τ) ((m.ρ * cos A + m.σ * sin A) * tan b')
    rw [abs_neg, abs_mul] at this
    have : |m.ρ * cos A + m.σ * sin A| * |tan b'| ≤ 0.09 * deg * 0.15 := mul_le_mul c tb (abs_nonneg _) (by positivity)
    linarith
  have hl : (m.lib lam β).1 = if l' + (m.physical A b').1 > π then l' + (m.physical A b').1 - 2 * π else l' + (m.physical A b').1 := rfl
  have hb : (m.lib lam β).2 = b' + (m.physical A b').2 := rfl
  have q1' := abs_le.1 q1
  refine ⟨?_, ?_, ?_, ?_, ?_⟩
  · rw [hl]; split_ifs with c <;> linarith
  · rw [hl]; split_ifs with c <;> linarith
  · rw [hb]; have := abs_add_le b' (m.physical A b').2; linarith
  · rw [hb, add_sub_cancel_left]; linarith
  · rw [hl]
    split_ifs with c
    · refine ⟨-1, ?_⟩; push_cast; rw [show ∀ x y z : ℝ, x + y - z - x - (-1) * z = y by intros; ring]; exact q1
    · refine ⟨0, ?_⟩; push_cast; rw [show ∀ x y z : ℝ, x + y - x - 0 * z = y by intros; ring]; exact q1

theorem pa_range (m : Moon) (lam β b : ℝ) : 0 ≤ m.pa lam β b ∧ m.pa lam β b < 2 * π := by
  obtain ⟨z, hz⟩ : ∃ z, m.pa lam β b = if arcsin z < 0 then arcsin z + 2 * π else arcsin z := ⟨_, rfl⟩
  have h1 := neg_pi_div_two_le_arcsin z
  have h2 := arcsin_le_pi_div_two z
  have := pi_pos
  rw [hz]
  split_ifs with c <;> constructor <;> linarith

/-- C128.  The librations returned by `Physical`: longitude in (-π, π], latitude at most 7.9 degrees, position angle in [0, 2π). -/
theorem C128_physical (jde : ℝ) (hj : |J2000Century jde| ≤ 20) (earth : ℝ → ℝ × ℝ × ℝ) :
    -π < (Physical jde earth).1 ∧ (Physical jde earth).1 ≤ π ∧ |(Physical jde earth).2.1| ≤ 7.9 * deg ∧
    0 ≤ (Physical jde earth).2.2.1 ∧ (Physical jde earth).2.2.1 < 2 * π := by
  have hb := (C126_bounds jde hj).1
  obtain ⟨h1, h2, h3, -⟩ := C128_lib jde hj (Position jde).1 (Position jde).2.1 (by linarith [mdeg_pos])
  exact ⟨h1, h2, h3, pa_range _ _ _ _⟩

/-- The direction of the axis of rotation of the Moon, in equatorial coordinates: the pole of a plane inclined by i to the ecliptic, with
descending node at longitude V, for obliquity ε. -/
noncomputable def lunarAxis (i V ε : ℝ) : V3 := rotX ε (rotZ (V + π) (rotX i !₂[0, 0, 1]))

theorem lunarAxis_vec (i V ε : ℝ) : lunarAxis i V ε =
    !₂[-(sin i * sin V), sin i * cos V * cos ε - cos i * sin ε, sin ε * (sin i * cos V) + cos ε * cos i] := by
  unfold lunarAxis
  rw [rotX_vec, rotZ_vec, rotX_vec, sin_add_pi, cos_add_pi]
  apply vec_eq <;> ring

/-- C128.  The sine of the position angle times the cosine of the libration in latitude is the eastward component of the axis; and if the
cosine of the latitude is the length of the projected axis, with the axis pointing north of the limb, the position angle is that of the
projected axis, counted from north through east. -/
theorem C128_axis (m : Moon) (lam β b : ℝ) (hb : 0 < cos b) :
    let V := m.Ω + m.Δψ + m.σ / sin I
    let n := lunarAxis (I + m.ρ) V m.ε
    let q := Coord.EclToEq (lam + m.Δψ) β (sin m.ε) (cos m.ε)
    (|inner ℝ n (east q.1)| ≤ cos b → sin (m.pa lam β b) * cos b = inner ℝ n (east q.1)) ∧
    (‖perp (dir q.1 q.2) n‖ = cos b → 0 ≤ inner ℝ n (north q.1 q.2) →
      perp (dir q.1 q.2) n = cos b • (sin (m.pa lam β b) • east q.1 + cos (m.pa lam β b) • north q.1 q.2)) := by
  intro V n q
  set X := sin (I + m.ρ) * sin V with hX
  set Y := sin (I + m.ρ) * cos V * cos m.ε - cos (I + m.ρ) * sin m.ε with hY
  have hn : n = !₂[-X, Y, sin m.ε * (sin (I + m.ρ) * cos V) + cos m.ε * cos (I + m.ρ)] := lunarAxis_vec _ _ _
  obtain ⟨p1, p2⟩ := atan2_polar X Y
  have hh : Verif.Model.Angle.hypot X Y = sqrt (Y ^ 2 + X ^ 2) := by unfold Verif.Model.Angle.hypot; rw [add_comm]
  have he : inner ℝ n (east q.1) = Verif.Model.Angle.hypot X Y * cos (q.1 - atan2 X Y) := by
    rw [hn]; unfold east; rw [inner_vec, cos_sub, hh]
    linear_combination (-cos q.1) * p1 - sin q.1 * p2
  have hP : m.pa lam β b = if arcsin (inner ℝ n (east q.1) / cos b) < 0 then arcsin (inner ℝ n (east q.1) / cos b) + 2 * π
      else arcsin (inner ℝ n (east q.1) / cos b) := by
    rw [he]; rfl
  have hsc : sin (m.pa lam β b) = sin (arcsin (inner ℝ n (east q.1) / cos b)) ∧
      cos (m.pa lam β b) = cos (arcsin (inner ℝ n (east q.1) / cos b)) := by
    rw [hP]; split_ifs with c
    · exact ⟨sin_add_two_pi _, cos_add_two_pi _⟩
    · exact ⟨rfl, rfl⟩
  have first : |inner ℝ n (east q.1)| ≤ cos b → sin (m.pa lam β b) * cos b = inner ℝ n (east q.1) := by
    intro h
    rw [hsc.1, sin_arcsin, div_mul_cancel₀ _ hb.ne']
    · rw [le_div_iff₀ hb]; linarith [(abs_le.1 h).1]
    · rw [div_le_one hb]; exact (abs_le.1 h).2
  refine ⟨first, fun hnorm hpos => ?_⟩
  set ea := inner ℝ n (east q.1)
  set no := inner ℝ n (north q.1 q.2)
  have hperp : perp (dir q.1 q.2) n = ea • east q.1 + no • north q.1 q.2 := by
    have e1 : ea = n 0 * -sin q.1 + n 1 * cos q.1 := by
      change inner ℝ n (east q.1) = _
      conv_lhs => rw [vec_self n]
      unfold east; rw [inner_vec]; ring
    have e2 : no = n 0 * (-sin q.2 * cos q.1) + n 1 * (-sin q.2 * sin q.1) + n 2 * cos q.2 := by
      change inner ℝ n (north q.1 q.2) = _
      conv_lhs => rw [vec_self n]
      unfold north; rw [inner_vec]
    rw [e1, e2]
    conv_lhs => rw [vec_self n]
    have s1 := sin_sq_add_cos_sq q.1
    have s2 := sin_sq_add_cos_sq q.2
    unfold dir east north
    rw [perp_vec]
    generalize n 0 = n0; generalize n 1 = n1; generalize n 2 = n2
    have sm : ∀ a x y z b x' y' z' : ℝ, a • (!₂[x, y, z] : V3) + b • !₂[x', y', z'] = !₂[a * x + b * x', a * y + b * y', a * z + b * z'] := by
      intros; ext i; fin_cases i <;> simp
    rw [sm]
    generalize sin q.1 = sa at *; generalize cos q.1 = ca at *; generalize sin q.2 = sd at *; generalize cos q.2 = cd at *
    clear * - s1 s2
    apply vec_eq <;> grind
  have hsq : ea ^ 2 + no ^ 2 = cos b ^ 2 := by
    rw [← hnorm, ← real_inner_self_eq_norm_sq, hperp]
    have i1 : inner ℝ (east q.1) (east q.1) = 1 := by unfold east; rw [inner_vec]; linear_combination sin_sq_add_cos_sq q.1
    have i2 : inner ℝ (north q.1 q.2) (north q.1 q.2) = 1 := by
      unfold north; rw [inner_vec]; linear_combination sin q.2 ^ 2 * sin_sq_add_cos_sq q.1 + sin_sq_add_cos_sq q.2
    have i3 : inner ℝ (east q.1) (north q.1 q.2) = 0 := by unfold east north; rw [inner_vec]; ring
    rw [inner_add_left, inner_add_right, inner_add_right, inner_smul_left, inner_smul_left, inner_smul_right, inner_smul_right,
      inner_smul_left, inner_smul_left, inner_smul_right, inner_smul_right, i1, i2, i3, real_inner_comm, i3]
    simp; ring
  have hle : |ea| ≤ cos b := abs_le_of_sq_le_sq (by nlinarith [sq_nonneg no]) hb.le
  have f1 := first hle
  have f2 : cos (m.pa lam β b) * cos b = no := by
    have c0 : 0 ≤ cos (m.pa lam β b) := by rw [hsc.2]; exact cos_arcsin_nonneg _
    have s := sin_sq_add_cos_sq (m.pa lam β b)
    have : (cos (m.pa lam β b) * cos b) ^ 2 = no ^ 2 := by
      have : (sin (m.pa lam β b) * cos b) ^ 2 = ea ^ 2 := by rw [f1]
      nlinarith
    exact (sq_eq_sq₀ (mul_nonneg c0 hb.le) hpos).1 this
  rw [hperp, smul_add, smul_smul, smul_smul, mul_comm (cos b), mul_comm (cos b), f1, f2]

end Verif.Props
