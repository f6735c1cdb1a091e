import Verif.Lemmas.Tangent
import Verif.Model.Precess
import Verif.Props.Precess
import Mathlib.Analysis.Real.Pi.Bounds

/-! Properties C84, C85 and C87: reduction of elements between the catalogue equinoxes, proper motion in space, and proper motion
carried from the equator to the ecliptic. -/

namespace Verif.Props

open Real Verif.Spec Verif.Go Verif.Model.Precess Verif.Lemmas

/-- C84.  ReduceB1950FK4ToJ2000FK5 turns the orbit as a whole by one rotation (L about the pole, J about the node, −L′ about the new pole);
at every angle ν from the perihelion the body is where the turned direction is. -/
theorem C84_fk4_rotation (e : Elements ℝ) (ν : ℝ) :
    let d := π / 180
    let r := reduceFK4Val e
    sin r.Inc ≠ 0 →
    orbitDir r.Inc r.Node (r.Peri + ν) =
      rotZ (-(4.50001688 * d)) (rotX (0.00651966 * d) (rotZ (5.19856209 * d) (orbitDir e.Inc e.Node (e.Peri + ν)))) := by
  intro d r hs
  have hL : (Ops.lit 5.19856209 * deg : ℝ) = 5.19856209 * d := by simp only [lit_real, deg, pi_real, d]; norm_num
  have hL' : (Ops.lit 4.50001688 * deg : ℝ) = 4.50001688 * d := by simp only [lit_real, deg, pi_real, d]; norm_num
  have hJ : (Ops.lit 0.00651966 * deg : ℝ) = 0.00651966 * d := by simp only [lit_real, deg, pi_real, d]; norm_num
  have hr : r = ⟨arccos (cos e.Inc * cos (0.00651966 * d) - sin e.Inc * sin (0.00651966 * d) * cos (5.19856209 * d + e.Node)),
      mod1 (e.Peri + atan2 (sin (0.00651966 * d) * sin (5.19856209 * d + e.Node))
        (sin e.Inc * cos (0.00651966 * d) + cos e.Inc * sin (0.00651966 * d) * cos (5.19856209 * d + e.Node))),
      mod1 (atan2 (sin e.Inc * sin (5.19856209 * d + e.Node))
        (cos e.Inc * sin (0.00651966 * d) + sin e.Inc * cos (0.00651966 * d) * cos (5.19856209 * d + e.Node)) - 4.50001688 * d)⟩ := by
    simp only [r, reduceFK4Val, hL, hL', hJ, sin_real, cos_real, acos_real, atan2_real, mod1_real]
  clear_value r
  subst hr
  dsimp only at hs ⊢
  set J := 0.00651966 * d
  set W := 5.19856209 * d + e.Node with hW
  have e0 : cos e.Inc * cos J - sin e.Inc * sin J * cos W = cos e.Inc * cos (-J) + sin e.Inc * sin (-J) * cos W := by
    rw [cos_neg, sin_neg]; ring
  rw [e0] at hs
  have h := reduce_turn e.Inc W (-J) e.Peri ν (-(5.19856209 * d)) (-(4.50001688 * d)) hs
  rw [neg_neg, neg_neg, ← e0, show W + -(5.19856209 * d) = e.Node by rw [hW]; ring] at h
  rw [← h, cos_neg, sin_neg]
  unfold orbitDir
  have hz : ∀ a v, rotZ (mod1 a) v = rotZ a v := fun a v => by unfold rotZ; rw [sin_mod1, cos_mod1]
  have hu : ∀ a : ℝ, cos (mod1 a + ν) = cos (a + ν) ∧ sin (mod1 a + ν) = sin (a + ν) := fun a => by
    rw [cos_add, sin_add, cos_mod1, sin_mod1, ← cos_add, ← sin_add]; exact ⟨rfl, rfl⟩
  rw [hz, (hu _).1, (hu _).2]
  have c1 : ∀ (x : ℝ), -4.50001688 * d + x = x - 4.50001688 * d := fun x => by ring
  congr 1
  · rw [sub_eq_add_neg, add_comm]
    congr 2; ring
  · congr 3 <;> congr 3 <;> ring_nf

/-- The bounds on the value under the arc sine in ReduceB1950ToJ2000. -/
theorem b1950_hyp (i W : ℝ) :
    |sqrt ((sin i * sin W) ^ 2 + (0.9999999935 * sin i * cos W - 0.0001139788 * cos i) ^ 2) - abs (sin i)| ≤ 0.00011399 := by
  have f1 := sin_sq_add_cos_sq i
  have f2 := sin_sq_add_cos_sq W
  set S := sqrt ((sin i * sin W) ^ 2 + (0.9999999935 * sin i * cos W - 0.0001139788 * cos i) ^ 2) with hS
  have hS0 : 0 ≤ S := sqrt_nonneg _
  have hS2 : S ^ 2 = (sin i * sin W) ^ 2 + (0.9999999935 * sin i * cos W - 0.0001139788 * cos i) ^ 2 := sq_sqrt (by positivity)
  set a := |sin i| with ha
  have ha0 : 0 ≤ a := abs_nonneg _
  have ha2 : a ^ 2 = sin i ^ 2 := sq_abs _
  -- the vector (si sW, C si cW − S ci) differs from (si sW, si cW) by δ = −((1−C) si cW + S ci)
  set x := sin i * sin W
  set y := sin i * cos W with hy
  have hxy : x ^ 2 + y ^ 2 = a ^ 2 := by rw [ha2]; simp only [x, y]; linear_combination sin i ^ 2 * f2
  set k := -(0.0000000065 * y) - 0.0001139788 * cos i with hk
  have hyk : 0.9999999935 * sin i * cos W - 0.0001139788 * cos i = y + k := by rw [hk, hy]; ring
  rw [hyk] at hS2
  have hc1 : |cos i| ≤ 1 := abs_cos_le_one i
  have hy1 : |y| ≤ a := abs_le_of_sq_le_sq (by nlinarith [sq_nonneg x]) ha0
  have ha1 : a ≤ 1 := by rw [ha]; exact abs_sin_le_one i
  have hk1 : |k| ≤ 0.00011399 := by
    rw [abs_le] at *
    constructor <;> rw [hk] <;> nlinarith
  have hya : |y| * |k| = |y * k| := (abs_mul y k).symm
  have h3 : |y * k| ≤ a * |k| := by rw [← hya]; gcongr
  rw [abs_le] at h3
  have hkk : |k| ^ 2 = k ^ 2 := sq_abs k
  have hk0 := abs_nonneg k
  have hS3 : S ^ 2 = a ^ 2 + 2 * (y * k) + k ^ 2 := by rw [hS2, ← hxy]; ring
  clear_value S a k y x
  have h4 : S ≤ a + |k| := by
    apply le_of_sq_le_sq _ (by positivity)
    have : (a + |k|) ^ 2 = a ^ 2 + 2 * (a * |k|) + |k| ^ 2 := by ring
    linarith
  have h5 : a ≤ S + |k| := by
    by_contra hcon
    push Not at hcon
    have h6 : S ^ 2 < (a - |k|) ^ 2 := pow_lt_pow_left₀ (by linarith) hS0 two_ne_zero
    have : (a - |k|) ^ 2 = a ^ 2 - 2 * (a * |k|) + |k| ^ 2 := by ring
    linarith
  rw [abs_le]; constructor <;> linarith

/-- C84, the part that holds: ReduceB1950ToJ2000 changes the sine of the inclination by at most 0.000114 (24 seconds of arc) wherever the arc sine
is defined.  Missing: the inclination itself for retrograde orbits, see the violation. -/
theorem C84_b1950_partial (e : Elements ℝ) (hi0 : 0 ≤ e.Inc) (hi1 : e.Inc ≤ π)
    (hdef : |sin e.Inc| ≤ 1 - 0.00011399) :
    |sin (reduceB1950Val e).Inc - sin e.Inc| ≤ 0.00011399 ∧ 0 ≤ (reduceB1950Val e).Inc := by
  have h := b1950_hyp e.Inc (e.Node - 174.298782 * (π / 180))
  have hI : (reduceB1950Val e).Inc = arcsin (sqrt ((sin e.Inc * sin (e.Node - 174.298782 * (π / 180))) ^ 2 +
      (0.9999999935 * sin e.Inc * cos (e.Node - 174.298782 * (π / 180)) - 0.0001139788 * cos e.Inc) ^ 2)) := by
    simp only [reduceB1950Val, asin_real, hypot_real, sin_real, cos_real, lit_real, deg, pi_real]
    norm_num
  have hs : |sin e.Inc| = sin e.Inc := abs_of_nonneg (sin_nonneg_of_nonneg_of_le_pi hi0 hi1)
  rw [hs] at h hdef
  rw [hI]
  generalize hq : sqrt ((sin e.Inc * sin (e.Node - 174.298782 * (π / 180))) ^ 2 +
      (0.9999999935 * sin e.Inc * cos (e.Node - 174.298782 * (π / 180)) - 0.0001139788 * cos e.Inc) ^ 2) = q at h
  have hq0 : 0 ≤ q := by rw [← hq]; exact sqrt_nonneg _
  have h' := abs_le.1 h
  rw [sin_arcsin (by linarith) (by linarith)]
  exact ⟨h, arcsin_nonneg.2 hq0⟩

/-- C84.  For a retrograde orbit the inclination returned is wrong by at least the excess over a right angle: at 135° by 45° or more. -/
theorem C84_b1950_violation (ω Ω : ℝ) :
    (reduceB1950Val ⟨3 * π / 4, ω, Ω⟩).Inc ≤ (3 * π / 4 : ℝ) - π / 4 := by
  have : (reduceB1950Val (⟨3 * π / 4, ω, Ω⟩ : Elements ℝ)).Inc = arcsin _ := rfl
  rw [this]
  linarith [arcsin_le_pi_div_two (Ops.hypot (Ops.sin (3 * π / 4 : ℝ) * Ops.sin (Ω - Ops.lit 174.298782 * deg))
      (Ops.lit 0.9999999935 * Ops.sin (3 * π / 4 : ℝ) * Ops.cos (Ω - Ops.lit 174.298782 * deg) - Ops.lit 0.0001139788 * Ops.cos (3 * π / 4 : ℝ)))]

/-- C85.  ProperMotion3D: motion in a straight line.  The star at distance r > 0 in direction (α, δ) with the velocity V of the
path r(t) dir(α(t), δ(t)), r(t) = r + mr t, α(t) = α + mα t, δ(t) = δ + mδ t at t = 0 is, after the time between the epochs, in the direction returned. -/
theorem C85_straight_line (e1 e2 r mr mα mδ α δ : ℝ) (hr : 0 < r) :
    ∃ V : V3, HasDerivAt (fun t => (r + mr * t) • dir (α + mα * t) (δ + mδ * t)) V 0 ∧
      ∃ ρ : ℝ, 0 ≤ ρ ∧ r • dir α δ + (e2 - e1) • V = ρ • dir (properMotion3DVal ⟨α, δ⟩ e1 e2 r mr mα mδ).RA
        (properMotion3DVal ⟨α, δ⟩ e1 e2 r mr mα mδ).Dec := by
  refine ⟨mr • dir α δ + r • shift α δ mα mδ, ?_, ?_⟩
  · have a : HasDerivAt (fun t : ℝ => r + mr * t) mr 0 := by
      simpa using ((hasDerivAt_id (0 : ℝ)).const_mul mr).const_add r
    have b := hasDerivAt_dir α δ mα mδ
    refine (a.smul b).congr_deriv ?_
    simp [add_comm]
  · have hv : r • dir α δ + (e2 - e1) • (mr • dir α δ + r • shift α δ mα mδ) =
        !₂[r * cos δ * cos α + (e2 - e1) * (r * cos δ * cos α * (mr / r) - r * sin δ * mδ * cos α - r * cos δ * sin α * mα),
           r * cos δ * sin α + (e2 - e1) * (r * cos δ * sin α * (mr / r) - r * sin δ * mδ * sin α + r * cos δ * cos α * mα),
           r * sin δ + (e2 - e1) * (r * sin δ * (mr / r) + r * mδ * cos δ)] := by
      rw [shift_vec, dir]
      ext i; fin_cases i <;> simp <;> field_simp <;> ring
    rw [hv]
    have hq : properMotion3DVal (⟨α, δ⟩ : Equatorial ℝ) e1 e2 r mr mα mδ =
      ⟨mod1 (atan2 (r * cos δ * sin α + (e2 - e1) * (r * cos δ * sin α * (mr / r) - r * sin δ * mδ * sin α + r * cos δ * cos α * mα))
          (r * cos δ * cos α + (e2 - e1) * (r * cos δ * cos α * (mr / r) - r * sin δ * mδ * cos α - r * cos δ * sin α * mα))),
        atan2 (r * sin δ + (e2 - e1) * (r * sin δ * (mr / r) + r * mδ * cos δ))
          (sqrt ((r * cos δ * cos α + (e2 - e1) * (r * cos δ * cos α * (mr / r) - r * sin δ * mδ * cos α - r * cos δ * sin α * mα)) ^ 2 +
            (r * cos δ * sin α + (e2 - e1) * (r * cos δ * sin α * (mr / r) - r * sin δ * mδ * sin α + r * cos δ * cos α * mα)) ^ 2))⟩ := rfl
    rw [hq]
    dsimp only
    generalize r * cos δ * cos α + (e2 - e1) * (r * cos δ * cos α * (mr / r) - r * sin δ * mδ * cos α - r * cos δ * sin α * mα) = x
    generalize r * cos δ * sin α + (e2 - e1) * (r * cos δ * sin α * (mr / r) - r * sin δ * mδ * sin α + r * cos δ * cos α * mα) = y
    generalize r * sin δ + (e2 - e1) * (r * sin δ * (mr / r) + r * mδ * cos δ) = z
    rw [dir_mod1]
    obtain ⟨p1, p2⟩ := atan2_polar y x
    obtain ⟨q1, q2⟩ := atan2_polar z (sqrt (x ^ 2 + y ^ 2))
    refine ⟨sqrt (sqrt (x ^ 2 + y ^ 2) ^ 2 + z ^ 2), sqrt_nonneg _, ?_⟩
    generalize sqrt (sqrt (x ^ 2 + y ^ 2) ^ 2 + z ^ 2) = R at *
    rw [dir]
    ext i; fin_cases i
    · simp; rw [← mul_assoc, q1, p1]
    · simp; rw [← mul_assoc, q1, p2]
    · simp; rw [q2]

/-- C85.  The declination is within ±π/2 and the right ascension in [0, 2π). -/
theorem C85_range (e1 e2 r mr mα mδ α δ : ℝ) :
    let q := properMotion3DVal ⟨α, δ⟩ e1 e2 r mr mα mδ
    0 ≤ q.RA ∧ q.RA < 2 * π ∧ |q.Dec| ≤ π / 2 := by
  intro q
  refine ⟨(mod1_eq _).1, (mod1_eq _).2.1, ?_⟩
  show |Complex.arg _| ≤ π / 2
  rw [Complex.abs_arg_le_pi_div_two_iff]
  exact sqrt_nonneg _

/-- C87.  Proper motion carried from the equator to the ecliptic: the velocity of the direction is the same vector in the two frames. -/
theorem C87_motion_to_ecliptic (mα mδ l β ε : ℝ) (hβ : 0 < cos β) :
    let q := Verif.Model.Coord.EclToEq l β (sin ε) (cos ε)
    let m := eqProperMotionToEcl mα mδ (sin ε) (cos ε) ⟨l, β⟩
    ∀ V W : V3, HasDerivAt (fun t => dir (q.1 + mα * t) (q.2 + mδ * t)) V 0 →
      HasDerivAt (fun t => dir (l + m.1 * t) (β + m.2 * t)) W 0 → V = rotX ε W := by
  intro q m V W hV hW
  have hd := C46_eclToEq_rotation l β (sin ε) (cos ε) (sin_sq_add_cos_sq ε) hβ
  change dir q.1 q.2 = _ at hd
  rw [hV.unique (hasDerivAt_dir q.1 q.2 mα mδ), hW.unique (hasDerivAt_dir l β m.1 m.2), shift_vec, shift_vec, rotX_vec]
  obtain ⟨d1, d2, d3⟩ := vec_inj hd
  have m1 : cos β * m.1 = (mδ * (sin ε * cos q.1) + mα * (cos q.2 * (cos ε * cos q.2 + sin ε * sin q.2 * sin q.1))) / cos β := by
    have : m.1 = (mδ * (sin ε * cos q.1) + mα * (cos q.2 * (cos ε * cos q.2 + sin ε * sin q.2 * sin q.1))) / (cos β * cos β) := rfl
    rw [this]; field_simp
  have m2 : m.2 = (mδ * (cos ε * cos q.2 + sin ε * sin q.2 * sin q.1) - mα * (sin ε * cos q.1 * cos q.2)) / cos β := rfl
  rw [m1, m2]
  clear m1 m2 hV hW hd
  have f1 := sin_sq_add_cos_sq ε
  have f2 := sin_sq_add_cos_sq β
  have f3 := sin_sq_add_cos_sq l
  have f4 := sin_sq_add_cos_sq q.1
  have f5 := sin_sq_add_cos_sq q.2
  clear_value q m
  generalize sin ε = se at *; generalize cos ε = ce at *
  generalize sin β = sb at *; generalize cos β = cb at *
  generalize sin l = sl at *; generalize cos l = cl at *
  generalize sin q.1 = sa at *; generalize cos q.1 = ca at *
  generalize sin q.2 = sd at *; generalize cos q.2 = cd at *
  have hc : cb ≠ 0 := hβ.ne'
  have g1 : cb * sl = ce * (cd * sa) + se * sd := by rw [d2, d3]; linear_combination (-(cb * sl)) * f1
  have g2 : sb = ce * sd - se * (cd * sa) := by rw [d2, d3]; linear_combination (-sb) * f1
  have g3 : cb ^ 2 = 1 - (ce * sd - se * (cd * sa)) ^ 2 := by rw [← g2]; linarith
  have hc2 : cb ^ 2 ≠ 0 := pow_ne_zero 2 hc
  set A := mδ * (se * ca) + mα * (cd * (ce * cd + se * sd * sa)) with hA
  set B := mδ * (ce * cd + se * sd * sa) - mα * (se * ca * cd) with hB
  have key : ∀ P Q : ℝ, cb ^ 2 * P = cb ^ 2 * Q → P = Q := fun P Q h => mul_left_cancel₀ hc2 h
  clear_value A B
  apply vec_eq <;> apply key
  · rw [show cb ^ 2 * (A / cb * -sl + B / cb * (-sb * cl)) = -(A * (cb * sl)) - B * sb * (cb * cl) by field_simp; ring, g1, ← d1, g2, g3, hA, hB]
    clear * - f1 f4 f5
    grind
  · rw [show cb ^ 2 * (ce * (A / cb * cl + B / cb * (-sb * sl)) - se * (B / cb * cb)) =
      ce * (A * (cb * cl) - B * sb * (cb * sl)) - se * B * cb ^ 2 by field_simp; ring, g1, ← d1, g2, g3, hA, hB]
    clear * - f1 f4 f5
    grind
  · rw [show cb ^ 2 * (se * (A / cb * cl + B / cb * (-sb * sl)) + ce * (B / cb * cb)) =
      se * (A * (cb * cl) - B * sb * (cb * sl)) + ce * B * cb ^ 2 by field_simp; ring, g1, ← d1, g2, g3, hA, hB]
    clear * - f1 f4 f5
    grind

end Verif.Props
