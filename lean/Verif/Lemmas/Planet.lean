import Verif.Spec.Planet
import Verif.Lemmas.Tangent
import Verif.Model.Angle
import Mathlib.Tactic.Linarith

namespace Verif.Lemmas

open Real Verif.Spec Verif.Go

theorem smul_vec (c x y z : ℝ) : c • (!₂[x, y, z] : V3) = !₂[c * x, c * y, c * z] := by
  ext i; fin_cases i <;> simp

theorem add_vec (a b c x y z : ℝ) : (!₂[a, b, c] : V3) + !₂[x, y, z] = !₂[a + x, b + y, c + z] := by
  ext i; fin_cases i <;> simp

theorem neg_vec (x y z : ℝ) : -(!₂[x, y, z] : V3) = !₂[-x, -y, -z] := by
  ext i; fin_cases i <;> simp

theorem norm_vec (x y z : ℝ) : ‖(!₂[x, y, z] : V3)‖ = sqrt (x * x + y * y + z * z) := by
  rw [← sqrt_sq (norm_nonneg (!₂[x, y, z] : V3)), ← real_inner_self_eq_norm_sq, inner_vec]

theorem arctan_polar (x : ℝ) {c : ℝ} (hc : 0 < c) :
    sqrt (c ^ 2 + x ^ 2) * cos (arctan (x / c)) = c ∧ sqrt (c ^ 2 + x ^ 2) * sin (arctan (x / c)) = x := by
  have h : sqrt (1 + (x / c) ^ 2) = sqrt (c ^ 2 + x ^ 2) / c := by
    rw [show 1 + (x / c) ^ 2 = (c ^ 2 + x ^ 2) / c ^ 2 by field_simp, sqrt_div' _ (sq_nonneg c), sqrt_sq hc.le]
  have hp : 0 < sqrt (c ^ 2 + x ^ 2) := sqrt_pos.2 (by positivity)
  rw [cos_arctan, sin_arctan, h]
  constructor <;> field_simp

/-- Longitude by atan2 and latitude by the arc tangent of a vector off the third axis give its direction. -/
theorem dir_arctan {x y : ℝ} (z : ℝ) (h : x ≠ 0 ∨ y ≠ 0) :
    sqrt (x * x + y * y + z * z) • dir (atan2 y x) (arctan (z / Verif.Model.Angle.hypot x y)) = !₂[x, y, z] := by
  have hp : 0 < x ^ 2 + y ^ 2 := by
    rcases h with h | h
    · have := sq_pos_of_ne_zero h; nlinarith [sq_nonneg y]
    · have := sq_pos_of_ne_zero h; nlinarith [sq_nonneg x]
  have hh : Verif.Model.Angle.hypot x y = sqrt (x ^ 2 + y ^ 2) := by unfold Verif.Model.Angle.hypot; rfl
  have hs : 0 < sqrt (x ^ 2 + y ^ 2) := sqrt_pos.2 hp
  obtain ⟨a1, a2⟩ := arctan_polar z hs
  obtain ⟨p1, p2⟩ := atan2_polar y x
  rw [sq_sqrt hp.le] at a1 a2
  rw [hh, show x * x + y * y + z * z = x ^ 2 + y ^ 2 + z ^ 2 by ring]
  unfold dir
  rw [smul_vec]
  apply vec_eq
  · rw [← mul_assoc, a1, p1]
  · rw [← mul_assoc, a1, p2]
  · exact a2

theorem fromPlane_vec (i Ω lon lat : ℝ) : fromPlane i Ω lon lat =
    !₂[cos Ω * (cos lat * cos lon) - sin Ω * (cos i * (cos lat * sin lon) - sin i * sin lat),
       sin Ω * (cos lat * cos lon) + cos Ω * (cos i * (cos lat * sin lon) - sin i * sin lat),
       sin i * (cos lat * sin lon) + cos i * sin lat] := by
  unfold fromPlane dir
  rw [rotX_vec, rotZ_vec]

theorem planePole_vec (i Ω : ℝ) : planePole i Ω = !₂[sin i * sin Ω, -(sin i * cos Ω), cos i] := by
  unfold planePole
  rw [rotX_vec, rotZ_vec]
  apply vec_eq <;> ring

theorem fromPole_vec (A D lon lat : ℝ) : fromPole A D lon lat =
    !₂[cos lat * (cos lon * -sin A + sin lon * (-sin D * cos A)) + sin lat * (cos D * cos A),
       cos lat * (cos lon * cos A + sin lon * (-sin D * sin A)) + sin lat * (cos D * sin A),
       cos lat * (sin lon * cos D) + sin lat * sin D] := by
  unfold fromPole east north dir
  simp only [smul_vec, add_vec]
  apply vec_eq <;> ring

/-- The direction (l, b) in the coordinates of a plane: the formulas of Meeus, chapter 45. -/
theorem dir_fromPlane (i Ω l b : ℝ) :
    dir l b = fromPlane i Ω (atan2 (sin i * sin b + cos i * cos b * sin (l - Ω)) (cos b * cos (l - Ω)))
      (-arcsin (sin i * cos b * sin (l - Ω) - cos i * sin b)) := by
  have e1 := sin_sq_add_cos_sq i
  have e2 := sin_sq_add_cos_sq b
  have e3 := sin_sq_add_cos_sq (l - Ω)
  have e4 := sin_sq_add_cos_sq Ω
  have hn : (cos b * cos (l - Ω)) ^ 2 + (sin i * sin b + cos i * cos b * sin (l - Ω)) ^ 2 +
      (-(sin i * cos b * sin (l - Ω) - cos i * sin b)) ^ 2 = 1 := by
    clear e4
    generalize sin i = s1 at *; generalize cos i = c1 at *; generalize sin b = s2 at *; generalize cos b = c2 at *
    generalize sin (l - Ω) = s3 at *; generalize cos (l - Ω) = c3 at *
    grind
  have h := dir_of_xyz hn
  rw [← arcsin_neg]
  unfold fromPlane
  rw [h, rotX_vec, rotZ_vec]
  have hl : l = (l - Ω) + Ω := by ring
  unfold dir
  conv_lhs => rw [hl, cos_add, sin_add]
  apply vec_eq
  · linear_combination (sin Ω * cos b * sin (l - Ω)) * e1
  · linear_combination (cos Ω * cos b * sin (l - Ω)) * (-e1)
  · linear_combination (-sin b) * e1

/-- The direction opposite to (a, d) in the coordinates of the equator of a planet: the formulas of Meeus, chapter 42. -/
theorem neg_dir_fromPole (A D a d : ℝ) :
    -dir a d = fromPole A D (atan2 (sin D * cos d * cos (A - a) - sin d * cos D) (cos d * sin (A - a)))
      (arcsin (-sin D * sin d - cos D * cos d * cos (A - a))) := by
  have e1 := sin_sq_add_cos_sq D
  have e2 := sin_sq_add_cos_sq d
  have e3 := sin_sq_add_cos_sq (A - a)
  have e4 := sin_sq_add_cos_sq A
  have hn : (cos d * sin (A - a)) ^ 2 + (sin D * cos d * cos (A - a) - sin d * cos D) ^ 2 +
      (-sin D * sin d - cos D * cos d * cos (A - a)) ^ 2 = 1 := by
    clear e4
    generalize sin D = s1 at *; generalize cos D = c1 at *; generalize sin d = s2 at *; generalize cos d = c2 at *
    generalize sin (A - a) = s3 at *; generalize cos (A - a) = c3 at *
    grind
  have h := dir_of_xyz hn
  unfold dir at h
  obtain ⟨h1, h2, h3⟩ := vec_inj h
  obtain ⟨t, ht⟩ : ∃ t, t = atan2 (sin D * cos d * cos (A - a) - sin d * cos D) (cos d * sin (A - a)) := ⟨_, rfl⟩
  obtain ⟨w, hw⟩ : ∃ w, w = arcsin (-sin D * sin d - cos D * cos d * cos (A - a)) := ⟨_, rfl⟩
  rw [← ht, ← hw] at h1 h2
  rw [← hw] at h3
  rw [← ht, ← hw, fromPole_vec]
  unfold dir
  rw [neg_vec]
  have ca : cos a = cos A * cos (A - a) + sin A * sin (A - a) := by
    rw [← cos_sub]; congr 1; ring
  have sa : sin a = sin A * cos (A - a) - cos A * sin (A - a) := by
    rw [← sin_sub]; congr 1; ring
  apply vec_eq
  · linear_combination sin A * h1 + sin D * cos A * h2 - cos D * cos A * h3 + (cos A * cos d * cos (A - a)) * e1 - cos d * ca
  · linear_combination (-cos A) * h1 + sin D * sin A * h2 - cos D * sin A * h3 + (sin A * cos d * cos (A - a)) * e1 - cos d * sa
  · linear_combination (-cos D) * h2 - sin D * h3 + (sin d) * e1

theorem inner_fromPlane (i Ω a b a' b' : ℝ) : inner ℝ (fromPlane i Ω a b) (fromPlane i Ω a' b') =
    sin b * sin b' + cos b * cos b' * cos (a - a') := by
  unfold fromPlane
  rw [inner_rotZ, inner_rotX, inner_dir]

end Verif.Lemmas
