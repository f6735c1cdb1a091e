import Verif.Spec.Sphere
import Verif.Go.Angle
import Mathlib.Tactic.LinearCombination
import Mathlib.Tactic.FieldSimp

namespace Verif.Lemmas

open Real Verif.Spec Verif.Go

theorem inner_vec (a b c x y z : ℝ) : inner ℝ (!₂[a, b, c] : V3) !₂[x, y, z] = a * x + b * y + c * z := by
  rw [PiLp.inner_apply, Fin.sum_univ_three]
  simp; ring

theorem inner_dir (r1 d1 r2 d2 : ℝ) :
    inner ℝ (dir r1 d1) (dir r2 d2) = sin d1 * sin d2 + cos d1 * cos d2 * cos (r1 - r2) := by
  unfold dir; rw [inner_vec, cos_sub]; ring

theorem norm_dir (r d : ℝ) : ‖dir r d‖ = 1 := by
  have h : ‖dir r d‖ ^ 2 = 1 := by
    rw [← real_inner_self_eq_norm_sq, inner_dir, sub_self, cos_zero]; linarith [sin_sq_add_cos_sq d]
  have h0 := norm_nonneg (dir r d)
  nlinarith

theorem sep_eq (r1 d1 r2 d2 : ℝ) : sep r1 d1 r2 d2 = arccos (sin d1 * sin d2 + cos d1 * cos d2 * cos (r1 - r2)) := by
  unfold sep InnerProductGeometry.angle
  rw [norm_dir, norm_dir, inner_dir]; simp

theorem vec_eq {a b c x y z : ℝ} (h1 : a = x) (h2 : b = y) (h3 : c = z) : (!₂[a, b, c] : V3) = !₂[x, y, z] := by
  rw [h1, h2, h3]

theorem vec_inj {a b c x y z : ℝ} (h : (!₂[a, b, c] : V3) = !₂[x, y, z]) : a = x ∧ b = y ∧ c = z := by
  have h0 := congrFun (congrArg (fun v : V3 => v.ofLp) h) 0
  have h1 := congrFun (congrArg (fun v : V3 => v.ofLp) h) 1
  have h2 := congrFun (congrArg (fun v : V3 => v.ofLp) h) 2
  exact ⟨by simpa using h0, by simpa using h1, by simpa using h2⟩

theorem vec_comb (a b c x1 x2 x3 y1 y2 y3 z1 z2 z3 : ℝ) :
    a • (!₂[x1, x2, x3] : V3) + b • !₂[y1, y2, y3] + c • !₂[z1, z2, z3] =
      !₂[a * x1 + b * y1 + c * z1, a * x2 + b * y2 + c * z2, a * x3 + b * y3 + c * z3] := by
  ext i
  fin_cases i <;> simp

/-- Latitude by arc sine and longitude by atan2 of coordinates scaled by a positive number. -/
theorem polar_scaled {x y z c : ℝ} (hc : 0 < c) (h : x ^ 2 + y ^ 2 + z ^ 2 = 1) :
    cos (arcsin z) * cos (atan2 (y / c) (x / c)) = x ∧ cos (arcsin z) * sin (atan2 (y / c) (x / c)) = y ∧
    sin (arcsin z) = z := by
  have hz : -1 ≤ z ∧ z ≤ 1 := by constructor <;> nlinarith [sq_nonneg x, sq_nonneg y]
  obtain ⟨p1, p2⟩ := atan2_polar (y / c) (x / c)
  have hs : sqrt ((x / c) ^ 2 + (y / c) ^ 2) = cos (arcsin z) / c := by
    rw [cos_arcsin, show (x / c) ^ 2 + (y / c) ^ 2 = (1 - z ^ 2) / c ^ 2 by rw [← h]; field_simp; ring,
      sqrt_div' _ (sq_nonneg c), sqrt_sq hc.le]
  rw [hs] at p1 p2
  refine ⟨?_, ?_, sin_arcsin hz.1 hz.2⟩
  · field_simp at p1; linarith
  · field_simp at p2; linarith

theorem dir_scaled {x y z c : ℝ} (hc : 0 < c) (h : x ^ 2 + y ^ 2 + z ^ 2 = 1) :
    dir (atan2 (y / c) (x / c)) (arcsin z) = !₂[x, y, z] := by
  obtain ⟨h1, h2, h3⟩ := polar_scaled hc h
  unfold dir; exact vec_eq h1 h2 h3

theorem dir_mod1 (r d : ℝ) : dir (mod1 r) d = dir r d := by
  unfold dir; rw [sin_mod1, cos_mod1]

theorem angle_of_cos_sin {a b : ℝ} (hc : cos a = cos b) (hs : sin a = sin b) : ∃ k : ℤ, a = b + k * (2 * π) := by
  have : (a : Real.Angle) = (b : Real.Angle) := Real.Angle.cos_sin_inj hc hs
  rw [Real.Angle.angle_eq_iff_two_pi_dvd_sub] at this
  obtain ⟨k, hk⟩ := this
  exact ⟨k, by linarith⟩

theorem mod1_congr {a b : ℝ} (h : ∃ k : ℤ, a = b + k * (2 * π)) : mod1 a = mod1 b := by
  obtain ⟨k, hk⟩ := h
  obtain ⟨h0, h1, m, hm⟩ := mod1_eq b
  refine pmod_unique (by positivity) h0 h1 (m + k) ?_
  push_cast; linarith

/-- A direction off the poles determines its latitude, and its longitude up to full turns. -/
theorem dir_inj {r d r' d' : ℝ} (hd : |d| < π / 2) (hd' : |d'| ≤ π / 2) (h : dir r d = dir r' d') :
    d = d' ∧ mod1 r = mod1 r' := by
  rw [abs_lt] at hd
  rw [abs_le] at hd'
  obtain ⟨h1, h2, h3⟩ := vec_inj h
  have e : d = d' := by
    have a1 := arcsin_sin hd.1.le hd.2.le
    have a2 := arcsin_sin hd'.1 hd'.2
    rw [← a1, ← a2, h3]
  subst e
  have hc : cos d ≠ 0 := (cos_pos_of_mem_Ioo ⟨hd.1, hd.2⟩).ne'
  exact ⟨rfl, mod1_congr (angle_of_cos_sin (mul_left_cancel₀ hc h1) (mul_left_cancel₀ hc h2))⟩

theorem abs_arcsin_le (z : ℝ) : |arcsin z| ≤ π / 2 := by
  rw [abs_le]; exact ⟨neg_pi_div_two_le_arcsin z, arcsin_le_pi_div_two z⟩

theorem mod1_of_mem {r : ℝ} (h0 : 0 ≤ r) (h1 : r < 2 * π) : mod1 r = r :=
  pmod_unique (by positivity) h0 h1 0 (by simp)

end Verif.Lemmas
