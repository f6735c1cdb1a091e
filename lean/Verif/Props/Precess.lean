import Verif.Lemmas.Rotation
import Verif.Model.Precess
import Verif.Props.Coord

/-! Properties C51 and C83: precession in equatorial and ecliptic coordinates and of orbital elements. -/

namespace Verif.Props

open Real Verif.Spec Verif.Go Verif.Model.Precess Verif.Lemmas

/-- Both branches of the latitude are the arc sine. -/
theorem latOf_eq {A B C : ℝ} (h : A ^ 2 + B ^ 2 + C ^ 2 = 1) : latOf A B C = arcsin C := by
  unfold latOf
  simp only [lt_real, abs_real, asin_real, acos_real, hypot_real, lit_real, Rat.cast_zero]
  split_ifs with h1 h2
  · rfl
  · rw [show A ^ 2 + B ^ 2 = 1 - (-C) ^ 2 by linarith, ← arcsin_eq_arccos (by linarith), arcsin_neg, neg_neg]
  · rw [show A ^ 2 + B ^ 2 = 1 - C ^ 2 by linarith, ← arcsin_eq_arccos (by linarith)]

/-- C51.  Precession turns every direction by one rotation, composed of a turn by ζ about the pole, by −θ about the second axis and by z
about the pole; the branch near the poles gives the same declination. -/
theorem C51_rotation (e1 e2 α δ : ℝ) :
    let a := precAngles e1 e2
    let q := precessVal (NewPrecessor e1 e2) ⟨α, δ⟩
    dir q.RA q.Dec = rotZ a.2.1 (rotY (-a.2.2) (rotZ a.1 (dir α δ))) := by
  intro a q
  rw [rotZ_dir]
  unfold dir
  rw [rotY_vec, cos_neg, sin_neg]
  have hn : (cos a.2.2 * (cos δ * cos (α + a.1)) + -sin a.2.2 * sin δ) ^ 2 + (cos δ * sin (α + a.1)) ^ 2 +
      (- -sin a.2.2 * (cos δ * cos (α + a.1)) + cos a.2.2 * sin δ) ^ 2 = 1 := by
    have f1 := sin_sq_add_cos_sq δ
    have f2 := sin_sq_add_cos_sq (α + a.1)
    have f3 := sin_sq_add_cos_sq a.2.2
    grind
  have hq : q = ⟨mod1 (atan2 (cos δ * sin (α + a.1)) (cos a.2.2 * (cos δ * cos (α + a.1)) + -sin a.2.2 * sin δ) + a.2.1),
      arcsin (- -sin a.2.2 * (cos δ * cos (α + a.1)) + cos a.2.2 * sin δ)⟩ := by
    rw [← latOf_eq (show (cos δ * sin (α + a.1)) ^ 2 + (cos a.2.2 * (cos δ * cos (α + a.1)) + -sin a.2.2 * sin δ) ^ 2 +
      (- -sin a.2.2 * (cos δ * cos (α + a.1)) + cos a.2.2 * sin δ) ^ 2 = 1 by linarith)]
    simp only [q, precessVal, NewPrecessor, sin_real, cos_real, mod1_real, atan2_real]
    congr 1
    · congr 2; congr 1; ring
    · congr 1 <;> ring
  rw [hq]
  show dir _ _ = _
  rw [dir_mod1, ← rotZ_dir, dir_of_xyz hn]

/-- C51.  The angles are the polynomials of the two epochs also when the code takes its shorter branch for 2000. -/
theorem C51_angles (e1 e2 : ℝ) :
    let T := (e1 - 2000) / 100
    let t := (e2 - e1) / 100
    let s := π / 180 / 3600
    precAngles e1 e2 =
      (((2306.2181 + 1.39656 * T - 0.000139 * T ^ 2) * t + (0.30188 - 0.000344 * T) * t ^ 2 + 0.017998 * t ^ 3) * s,
       ((2306.2181 + 1.39656 * T - 0.000139 * T ^ 2) * t + (1.09468 + 0.000066 * T) * t ^ 2 + 0.018203 * t ^ 3) * s,
       ((2004.3109 - 0.85330 * T - 0.000217 * T ^ 2) * t - (0.42665 + 0.000217 * T) * t ^ 2 - 0.041833 * t ^ 3) * s) := by
  intro T t s
  unfold precAngles
  simp only [lit_real, eq_real, horner3, sec, deg, pi_real]
  by_cases h : e1 = 2000
  · subst h
    have : (2000 : ℝ) = ((2000 : ℚ) : ℝ) := by norm_num
    simp only [if_neg (not_not_intro this)]
    refine Prod.ext ?_ (Prod.ext ?_ ?_) <;> (norm_num [T, t, s]; ring)
  · have : ¬ e1 = ((2000 : ℚ) : ℝ) := by push_cast; exact h
    simp only [if_pos this]
    refine Prod.ext ?_ (Prod.ext ?_ ?_) <;> (norm_num [T, t, s]; ring)

/-- C51.  The angle between any two stars is preserved. -/
theorem C51_separation_preserved (e1 e2 α δ α' δ' : ℝ) :
    let q := precessVal (NewPrecessor e1 e2) ⟨α, δ⟩
    let q' := precessVal (NewPrecessor e1 e2) ⟨α', δ'⟩
    sep q.RA q.Dec q'.RA q'.Dec = sep α δ α' δ' := by
  intro q q'
  apply sep_of_inner
  rw [C51_rotation e1 e2 α δ, C51_rotation e1 e2 α' δ', inner_rotZ, inner_rotY, inner_rotZ]

/-- C51.  Right ascension and declination lie in their ranges. -/
theorem C51_range (e1 e2 α δ : ℝ) :
    let q := precessVal (NewPrecessor e1 e2) ⟨α, δ⟩
    0 ≤ q.RA ∧ q.RA < 2 * π ∧ |q.Dec| ≤ π / 2 := by
  intro q
  refine ⟨(mod1_eq _).1, (mod1_eq _).2.1, ?_⟩
  have : q.Dec = latOf _ _ _ := rfl
  rw [this, latOf_eq]
  · exact abs_arcsin_le _
  · simp only [NewPrecessor, sin_real, cos_real]
    have f1 := sin_sq_add_cos_sq δ
    have f2 := sin_sq_add_cos_sq (α + (precAngles e1 e2).1)
    have f3 := sin_sq_add_cos_sq (precAngles e1 e2).2.2
    grind

/-- C51.  With equal epochs every star stays. -/
theorem C51_identity (e α δ : ℝ) (hδ : |δ| < π / 2) :
    precessVal (NewPrecessor e e) ⟨α, δ⟩ = ⟨mod1 α, δ⟩ := by
  have h := C51_rotation e e α δ
  have h0 : precAngles e e = (0, 0, 0) := by rw [C51_angles]; simp
  rw [h0] at h
  simp only [neg_zero] at h
  have e0 : ∀ v : V3, rotY 0 v = v := fun v => by
    conv_rhs => rw [vec_self v]
    unfold rotY; simp
  rw [e0, rotZ_dir, rotZ_dir, add_zero, add_zero] at h
  obtain ⟨i1, i2⟩ := dir_inj hδ (C51_range e e α δ).2.2 h.symm
  obtain ⟨r0, r1, -⟩ := C51_range e e α δ
  rw [mod1_of_mem r0 r1] at i2
  ext1
  · exact i2.symm
  · exact i1.symm

/-- C51.  Position with zero proper motion is Precess. -/
theorem C51_position_zero_motion (e1 e2 α δ : ℝ) :
    positionVal ⟨α, δ⟩ e1 e2 0 0 = precessVal (NewPrecessor e1 e2) ⟨α, δ⟩ := by
  simp only [positionVal, precessVal, mod1_real, sin_real, cos_real, zero_mul, add_zero]
  obtain ⟨-, -, k, hk⟩ := mod1_eq α
  have hs : sin (mod1 α + (NewPrecessor e1 e2).ζ) = sin (α + (NewPrecessor e1 e2).ζ) := by
    rw [sin_add, sin_mod1, cos_mod1, ← sin_add]
  have hc : cos (mod1 α + (NewPrecessor e1 e2).ζ) = cos (α + (NewPrecessor e1 e2).ζ) := by
    rw [cos_add, sin_mod1, cos_mod1, ← cos_add]
  rw [hs, hc]

/-- C51.  A century from 2000.0: the three angles are not zero, so the rotation is a genuine one. -/
theorem C51_example : (precAngles (2000 : ℝ) 2100).2.2 = (2004.3109 - 0.42665 - 0.041833) * (π / 180 / 3600) ∧
    0 < (precAngles (2000 : ℝ) 2100).2.2 := by
  have h : (precAngles (2000 : ℝ) 2100).2.2 = (2004.3109 - 0.42665 - 0.041833) * (π / 180 / 3600) := by
    rw [C51_angles]; norm_num
  refine ⟨h, ?_⟩
  rw [h]; norm_num; positivity

/-- C83.  Ecliptic precession: the turn about the node Π of the two ecliptics by −η, then by p along the new ecliptic. -/
theorem C83_ecliptic_rotation (e1 e2 l β : ℝ) :
    let a := eclAngles e1 e2
    let q := eclPrecessVal (NewEclipticPrecessor e1 e2) ⟨l, β⟩
    dir q.Lon q.Lat = rotZ (a.2.1 + a.2.2) (rotX (-a.1) (rotZ (-a.2.1) (dir l β))) := by
  intro a q
  rw [rotZ_dir]
  unfold dir
  rw [rotX_vec, cos_neg, sin_neg]
  set d := l + -a.2.1 with hd
  have hn : (cos β * cos d) ^ 2 + (cos a.1 * (cos β * sin d) - -sin a.1 * sin β) ^ 2 +
      (-sin a.1 * (cos β * sin d) + cos a.1 * sin β) ^ 2 = 1 := by
    have f1 := sin_sq_add_cos_sq β
    have f2 := sin_sq_add_cos_sq d
    have f3 := sin_sq_add_cos_sq a.1
    grind
  have hsd : sin (a.2.1 - l) = - sin d := by rw [← sin_neg]; congr 1; rw [hd]; ring
  have hcd : cos (a.2.1 - l) = cos d := by rw [← cos_neg d]; congr 1; rw [hd]; ring
  have hlat : q.Lat = arcsin (-sin a.1 * (cos β * sin d) + cos a.1 * sin β) := by
    rw [← latOf_eq (show (-(cos a.1 * (cos β * sin d) - -sin a.1 * sin β)) ^ 2 + (cos β * cos d) ^ 2 +
      (-sin a.1 * (cos β * sin d) + cos a.1 * sin β) ^ 2 = 1 by linarith)]
    simp only [q, eclPrecessVal, NewEclipticPrecessor, sin_real, cos_real]
    change latOf (cos a.1 * cos β * sin (a.2.1 - l) - sin a.1 * sin β) (cos β * cos (a.2.1 - l))
      (cos a.1 * sin β + sin a.1 * cos β * sin (a.2.1 - l)) = _
    rw [hsd, hcd]
    congr 1 <;> ring
  have hlon : q.Lon = a.2.2 + a.2.1 -
      atan2 (-(cos a.1 * (cos β * sin d) - -sin a.1 * sin β)) (cos β * cos d) := by
    simp only [q, eclPrecessVal, NewEclipticPrecessor, sin_real, cos_real, atan2_real]
    change a.2.2 + a.2.1 - atan2 (cos a.1 * cos β * sin (a.2.1 - l) - sin a.1 * sin β) (cos β * cos (a.2.1 - l)) = _
    rw [hsd, hcd]
    congr 2; ring
  obtain ⟨p1, p2⟩ := atan2_polar (-(cos a.1 * (cos β * sin d) - -sin a.1 * sin β)) (cos β * cos d)
  set y := cos a.1 * (cos β * sin d) - -sin a.1 * sin β
  set x := cos β * cos d
  set z := -sin a.1 * (cos β * sin d) + cos a.1 * sin β
  have hz : cos (arcsin z) = sqrt (x ^ 2 + (-y) ^ 2) := by rw [cos_arcsin]; congr 1; linarith
  have hz1 : -1 ≤ z ∧ z ≤ 1 := by constructor <;> nlinarith [sq_nonneg x, sq_nonneg y]
  rw [hlat, hlon, rotZ_vec, hz, sin_arcsin hz1.1 hz1.2, cos_sub, sin_sub, add_comm a.2.2 a.2.1]
  apply vec_eq
  · linear_combination cos (a.2.1 + a.2.2) * p1 + sin (a.2.1 + a.2.2) * p2
  · linear_combination sin (a.2.1 + a.2.2) * p1 - cos (a.2.1 + a.2.2) * p2
  · rfl

/-- C83.  The angles of ecliptic precession are the polynomials of the two epochs, both branches. -/
theorem C83_angles (e1 e2 : ℝ) :
    let T := (e1 - 2000) / 100
    let t := (e2 - e1) / 100
    let s := π / 180 / 3600
    eclAngles e1 e2 =
      (((47.0029 - 0.06603 * T + 0.000598 * T ^ 2) * t + (-0.03302 + 0.000598 * T) * t ^ 2 + 0.000060 * t ^ 3) * s,
       174.876384 * (π / 180) + (3289.4789 * T + 0.60622 * T ^ 2 - (869.8089 + 0.50491 * T) * t + 0.03536 * t ^ 2) * s,
       ((5029.0966 + 2.22226 * T - 0.000042 * T ^ 2) * t + (1.11113 - 0.000042 * T) * t ^ 2 - 0.000006 * t ^ 3) * s) := by
  intro T t s
  unfold eclAngles
  simp only [lit_real, eq_real, horner3, sec, deg, pi_real]
  by_cases h : e1 = 2000
  · subst h
    have : (2000 : ℝ) = ((2000 : ℚ) : ℝ) := by norm_num
    simp only [if_neg (not_not_intro this)]
    refine Prod.ext ?_ (Prod.ext ?_ ?_) <;> (norm_num [T, t, s]; ring)
  · have : ¬ e1 = ((2000 : ℚ) : ℝ) := by push_cast; exact h
    simp only [if_pos this]
    refine Prod.ext ?_ (Prod.ext ?_ ?_) <;> (norm_num [T, t, s]; ring)

/-- C83.  The angle between any two directions is preserved. -/
theorem C83_separation_preserved (e1 e2 l β l' β' : ℝ) :
    let q := eclPrecessVal (NewEclipticPrecessor e1 e2) ⟨l, β⟩
    let q' := eclPrecessVal (NewEclipticPrecessor e1 e2) ⟨l', β'⟩
    sep q.Lon q.Lat q'.Lon q'.Lat = sep l β l' β' := by
  intro q q'
  apply sep_of_inner
  rw [C83_ecliptic_rotation e1 e2 l β, C83_ecliptic_rotation e1 e2 l' β', inner_rotZ, inner_rotX, inner_rotZ]

/-- With equal epochs a direction stays. -/
theorem C83_identity (e l β : ℝ) :
    let q := eclPrecessVal (NewEclipticPrecessor e e) ⟨l, β⟩
    dir q.Lon q.Lat = dir l β := by
  intro q
  have h := C83_ecliptic_rotation e e l β
  dsimp only at h
  have h0 : (eclAngles e e).1 = 0 ∧ (eclAngles e e).2.2 = 0 := by rw [C83_angles]; simp
  rw [h0.1, h0.2, rotZ_dir] at h
  have e0 : ∀ v : V3, rotX (-0) v = v := fun v => by
    conv_rhs => rw [vec_self v]
    unfold rotX; simp
  rw [e0, rotZ_dir] at h
  rw [h]; congr 1; ring

theorem hyp_arccos {x y c : ℝ} (h : x ^ 2 + y ^ 2 + c ^ 2 = 1) :
    sin (arccos c) * cos (atan2 y x) = x ∧ sin (arccos c) * sin (atan2 y x) = y ∧ cos (arccos c) = c := by
  obtain ⟨p1, p2⟩ := atan2_polar y x
  have : sin (arccos c) = sqrt (x ^ 2 + y ^ 2) := by rw [sin_arccos]; congr 1; linarith
  rw [this]
  refine ⟨p1, p2, cos_arccos ?_ ?_⟩ <;> nlinarith [sq_nonneg x, sq_nonneg y]

theorem rotZ_rotZ (a b : ℝ) (v : V3) : rotZ a (rotZ b v) = rotZ (a + b) v := by
  rw [vec_self v, rotZ_vec, rotZ_vec, rotZ_vec, cos_add, sin_add]
  apply vec_eq <;> ring

/-- Reduction of elements by a turn −η about the node: the orbit is turned as a whole.  -/
theorem reduce_turn (i n η ω u P ψ : ℝ) (hs : sin (arccos (cos i * cos η + sin i * sin η * cos n)) ≠ 0) :
    orbitDir (arccos (cos i * cos η + sin i * sin η * cos n))
      (ψ + atan2 (sin i * sin n) (cos η * sin i * cos n - sin η * cos i))
      (ω + atan2 (-sin η * sin n) (sin i * cos η - cos i * sin η * cos n) + u) =
    rotZ ψ (rotX (-η) (rotZ (-P) (orbitDir i (n + P) (ω + u)))) := by
  have f1 := sin_sq_add_cos_sq i
  have f2 := sin_sq_add_cos_sq n
  have f3 := sin_sq_add_cos_sq η
  have n1 : (cos η * sin i * cos n - sin η * cos i) ^ 2 + (sin i * sin n) ^ 2 + (cos i * cos η + sin i * sin η * cos n) ^ 2 = 1 := by grind
  have n2 : (sin i * cos η - cos i * sin η * cos n) ^ 2 + (-sin η * sin n) ^ 2 + (cos i * cos η + sin i * sin η * cos n) ^ 2 = 1 := by grind
  obtain ⟨a1, a2, a3⟩ := hyp_arccos n1
  obtain ⟨b1, b2, -⟩ := hyp_arccos n2
  have h := orbit_turn (ω + u) hs a3 a1 a2 b1 b2
  have e1 : rotZ (-P) (orbitDir i (n + P) (ω + u)) = orbitDir i n (ω + u) := by
    unfold orbitDir; rw [rotZ_rotZ]; congr 1; ring
  rw [e1, ← h]
  unfold orbitDir
  rw [rotZ_rotZ]
  congr 3
  ring_nf

/-- C83.  ReduceElements turns the orbit as a whole by the rotation of the precession of directions: at every angle ν from the
perihelion the body is where the precessed direction is.  Only orbits lying in the new ecliptic (sin i = 0), whose node is
undefined, are excluded. -/
theorem C83_reduceElements (e1 e2 ν : ℝ) (e : Elements ℝ) :
    let a := eclAngles e1 e2
    let r := reduceVal (NewEclipticPrecessor e1 e2) e
    sin r.Inc ≠ 0 →
    orbitDir r.Inc r.Node (r.Peri + ν) =
      rotZ (a.2.1 + a.2.2) (rotX (-a.1) (rotZ (-a.2.1) (orbitDir e.Inc e.Node (e.Peri + ν)))) := by
  intro a r hs
  have h := reduce_turn e.Inc (e.Node - a.2.1) a.1 e.Peri ν a.2.1 (a.2.1 + a.2.2) hs
  rw [sub_add_cancel] at h
  exact h

/-- C83.  The inclination is in [0, π]. -/
theorem C83_inclination_range (p : EclipticPrecessor ℝ) (e : Elements ℝ) :
    0 ≤ (reduceVal p e).Inc ∧ (reduceVal p e).Inc ≤ π := ⟨arccos_nonneg _, arccos_le_pi _⟩

end Verif.Props
