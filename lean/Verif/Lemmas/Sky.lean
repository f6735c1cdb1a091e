import Verif.Lemmas.Rotation
import Verif.Lemmas.Tangent
import Verif.Lemmas.Planet
import Mathlib.Tactic
/-
Rectangular coordinates on the sky with respect to the projection of an axis.
-/
namespace Verif.Lemmas

open Real Verif.Go Verif.Spec

theorem norm_dir_sq (v : V3) (lam0 β0 : ℝ) :
    inner ℝ (east lam0) v ^ 2 + inner ℝ (dir lam0 β0) v ^ 2 + inner ℝ (north lam0 β0) v ^ 2 = inner ℝ v v := by
  rw [vec_self v]
  unfold east dir north
  simp only [inner_vec]
  generalize v 0 = x; generalize v 1 = y; generalize v 2 = z
  have f1 := sin_sq_add_cos_sq lam0
  have f2 := sin_sq_add_cos_sq β0
  generalize sin lam0 = s1 at *; generalize cos lam0 = c1 at *; generalize sin β0 = s2 at *; generalize cos β0 = c2 at *
  clear * - f1 f2
  grind

theorem frame_cross (lam0 β0 : ℝ) (N P : V3) :
    inner ℝ (cross (dir lam0 β0) N) P = inner ℝ (east lam0) N * inner ℝ (north lam0 β0) P - inner ℝ (north lam0 β0) N * inner ℝ (east lam0) P := by
  rw [vec_self N, vec_self P]
  unfold east dir north
  rw [cross_vec]
  simp only [inner_vec]
  generalize N 0 = x; generalize N 1 = y; generalize N 2 = z
  generalize P 0 = x'; generalize P 1 = y'; generalize P 2 = z'
  have f1 := sin_sq_add_cos_sq lam0
  have f2 := sin_sq_add_cos_sq β0
  generalize sin lam0 = s1 at *; generalize cos lam0 = c1 at *; generalize sin β0 = s2 at *; generalize cos β0 = c2 at *
  clear * - f1 f2
  grind

theorem frame_perp (lam0 β0 : ℝ) (N P : V3) :
    inner ℝ (perp (dir lam0 β0) N) P = inner ℝ (east lam0) N * inner ℝ (east lam0) P + inner ℝ (north lam0 β0) N * inner ℝ (north lam0 β0) P := by
  unfold perp
  rw [inner_sub_left, inner_smul_left]
  simp only [conj_trivial]
  rw [vec_self N, vec_self P]
  unfold east dir north
  simp only [inner_vec]
  generalize N 0 = x; generalize N 1 = y; generalize N 2 = z
  generalize P 0 = x'; generalize P 1 = y'; generalize P 2 = z'
  have f1 := sin_sq_add_cos_sq lam0
  have f2 := sin_sq_add_cos_sq β0
  generalize sin lam0 = s1 at *; generalize cos lam0 = c1 at *; generalize sin β0 = s2 at *; generalize cos β0 = c2 at *
  clear * - f1 f2
  grind

/-- Coordinates on the sky.  A, C are the westward and northward components of P, A0, C0 those of N; turning by the position angle D of N gives
the components of P along s × N and along the projection of N, up to the length of that projection. -/
theorem sky_frame (lam0 β0 : ℝ) (N P : V3) {A0 C0 A B C : ℝ} (hA0 : A0 = -inner ℝ (east lam0) N) (hC0 : C0 = inner ℝ (north lam0 β0) N)
    (hA : A = -inner ℝ (east lam0) P) (hB : B = inner ℝ (dir lam0 β0) P) (hC : C = inner ℝ (north lam0 β0) P) :
    let D := atan2 A0 C0
    let s := dir lam0 β0
    ‖perp s N‖ * (A * cos D - C * sin D) = inner ℝ (cross s N) P ∧ ‖perp s N‖ * (A * sin D + C * cos D) = inner ℝ (perp s N) P ∧
    B = inner ℝ s P ∧ (A * cos D - C * sin D) ^ 2 + (A * sin D + C * cos D) ^ 2 + B ^ 2 = inner ℝ P P := by
  intro D s
  obtain ⟨ρ, hρ⟩ : ∃ ρ, ρ = sqrt (C0 ^ 2 + A0 ^ 2) := ⟨_, rfl⟩
  obtain ⟨d1, d2⟩ := atan2_polar A0 C0
  have hD : atan2 A0 C0 = D := rfl
  rw [hD, ← hρ] at d1 d2
  rw [hC0] at d1
  rw [hA0] at d2
  have hs : dir lam0 β0 = s := rfl
  have hn : ‖perp s N‖ = ρ := by
    rw [hρ, hA0, hC0, ← sqrt_sq (norm_nonneg _), ← real_inner_self_eq_norm_sq]
    congr 1
    have e := frame_perp lam0 β0 N (perp s N)
    rw [hs] at e
    rw [e]
    have o1 : inner ℝ (east lam0) (perp s N) = inner ℝ (east lam0) N := by
      unfold perp
      rw [inner_sub_right, inner_smul_right]
      have : inner ℝ (east lam0) s = 0 := by
        rw [← hs]; unfold east dir; rw [inner_vec]; ring
      rw [this]; ring
    have o2 : inner ℝ (north lam0 β0) (perp s N) = inner ℝ (north lam0 β0) N := by
      unfold perp
      rw [inner_sub_right, inner_smul_right]
      have : inner ℝ (north lam0 β0) s = 0 := by
        rw [← hs]; unfold north dir; rw [inner_vec]
        linear_combination (-(sin β0 * cos β0)) * sin_sq_add_cos_sq lam0
      rw [this]; ring
    rw [o1, o2]; ring
  rw [hn, ← hs, frame_cross, frame_perp, hA, hB, hC]
  refine ⟨?_, ?_, rfl, ?_⟩
  · linear_combination (-inner ℝ (east lam0) P) * d1 - (inner ℝ (north lam0 β0) P) * d2
  · linear_combination (inner ℝ (north lam0 β0) P) * d1 - (inner ℝ (east lam0) P) * d2
  · have e := norm_dir_sq P lam0 β0
    rw [← e]
    linear_combination (inner ℝ (east lam0) P ^ 2 + inner ℝ (north lam0 β0) P ^ 2) * sin_sq_add_cos_sq D

/-- Perspective and differential light time: with X² + Y² + Z² = r², the number under the root is not negative and the result is the point seen in
perspective, X first displaced by at most |Z|/k. -/
theorem sky_corrected {X Y Z r Δ k u : ℝ} (hn : X ^ 2 + Y ^ 2 + Z ^ 2 = r ^ 2) (hk : 0 < k) (hr : 0 < r) (hu : 0 < u) (hΔ : r < u * Δ) :
    0 ≤ 1 - X / r * (X / r) ∧ 0 < u * Δ + Z ∧ Y * (Δ / (Δ + Z / u)) = u * Δ * Y / (u * Δ + Z) ∧
    ∃ δ, 0 ≤ δ ∧ δ ≤ |Z| / k ∧ (X + |Z| / k * sqrt (1 - X / r * (X / r))) * (Δ / (Δ + Z / u)) = u * Δ * (X + δ) / (u * Δ + Z) := by
  have h1 : X ^ 2 ≤ r ^ 2 := by linarith [sq_nonneg Y, sq_nonneg Z]
  have h2 : |Z| ≤ r := abs_le_of_sq_le_sq (by linarith [sq_nonneg Y, sq_nonneg X]) hr.le
  have h3 : X / r * (X / r) ≤ 1 := by
    rw [div_mul_div_comm, div_le_one (by positivity)]; nlinarith
  have h4 : 0 < u * Δ + Z := by linarith [(abs_le.1 h2).1]
  have h5 : Δ + Z / u = (u * Δ + Z) / u := by field_simp
  have hW : Δ / (Δ + Z / u) = u * Δ / (u * Δ + Z) := by
    rw [h5, div_div_eq_mul_div]; ring
  refine ⟨by linarith, h4, ?_, |Z| / k * sqrt (1 - X / r * (X / r)), by positivity, ?_, ?_⟩
  · rw [hW]; ring
  · have hs : sqrt (1 - X / r * (X / r)) ≤ 1 := by
      rw [sqrt_le_left (by norm_num)]; linarith [mul_self_nonneg (X / r)]
    exact mul_le_of_le_one_right (by positivity) hs
  · rw [hW]; ring

end Verif.Lemmas
