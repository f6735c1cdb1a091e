import Verif.Spec.Rotation
import Verif.Lemmas.Sphere

namespace Verif.Lemmas

open Real Verif.Spec Verif.Go

theorem rotZ_vec (a x y z : ℝ) : rotZ a !₂[x, y, z] = !₂[cos a * x - sin a * y, sin a * x + cos a * y, z] := by
  unfold rotZ; simp

theorem rotX_vec (a x y z : ℝ) : rotX a !₂[x, y, z] = !₂[x, cos a * y - sin a * z, sin a * y + cos a * z] := by
  unfold rotX; simp

theorem rotY_vec (a x y z : ℝ) : rotY a !₂[x, y, z] = !₂[cos a * x + sin a * z, y, -sin a * x + cos a * z] := by
  unfold rotY; simp

theorem vec_self (v : V3) : v = !₂[v 0, v 1, v 2] := by
  ext i; fin_cases i <;> simp

theorem inner_rotZ (a : ℝ) (v w : V3) : inner ℝ (rotZ a v) (rotZ a w) = inner ℝ v w := by
  conv_rhs => rw [vec_self v, vec_self w]
  unfold rotZ
  rw [inner_vec, inner_vec]
  linear_combination (v 0 * w 0 + v 1 * w 1) * sin_sq_add_cos_sq a

theorem inner_rotX (a : ℝ) (v w : V3) : inner ℝ (rotX a v) (rotX a w) = inner ℝ v w := by
  conv_rhs => rw [vec_self v, vec_self w]
  unfold rotX
  rw [inner_vec, inner_vec]
  linear_combination (v 1 * w 1 + v 2 * w 2) * sin_sq_add_cos_sq a

theorem inner_rotY (a : ℝ) (v w : V3) : inner ℝ (rotY a v) (rotY a w) = inner ℝ v w := by
  conv_rhs => rw [vec_self v, vec_self w]
  unfold rotY
  rw [inner_vec, inner_vec]
  linear_combination (v 0 * w 0 + v 2 * w 2) * sin_sq_add_cos_sq a

theorem rotZ_dir (a r d : ℝ) : rotZ a (dir r d) = dir (r + a) d := by
  unfold dir; rw [rotZ_vec, cos_add, sin_add]
  apply vec_eq <;> ring

/-- `sin (arccos x)` for a spherical triple: the square root of the two other squares. -/
theorem dir_of_xyz {x y z : ℝ} (h : x ^ 2 + y ^ 2 + z ^ 2 = 1) : dir (atan2 y x) (arcsin z) = !₂[x, y, z] := by
  have := dir_scaled one_pos h
  simpa using this

theorem orbit_turn_alg {si ci sn cn se ce si' ci' sN cN sD cD : ℝ} (hs : si' ≠ 0)
    (e1 : si ^ 2 + ci ^ 2 = 1) (e2 : sn ^ 2 + cn ^ 2 = 1) (e3 : se ^ 2 + ce ^ 2 = 1) (e4 : si' ^ 2 + ci' ^ 2 = 1)
    (hc : ci' = ci * ce + si * se * cn)
    (h1 : si' * cN = ce * si * cn - se * ci) (h2 : si' * sN = si * sn)
    (h3 : si' * cD = si * ce - ci * se * cn) (h4 : si' * sD = -se * sn) :
    cN * cD - sN * sD * ci' = cn ∧ -(cN * sD) - sN * cD * ci' = -(sn * ci) ∧
    sN * cD + cN * sD * ci' = ce * sn ∧ -(sN * sD) + cN * cD * ci' = ce * cn * ci + se * si ∧
    si' * sD = -se * sn ∧ si' * cD = -(se * cn * ci) + ce * si := by
  have hs2 : si' * si' ≠ 0 := mul_ne_zero hs hs
  have key : ∀ P Q : ℝ, si' * si' * P = si' * si' * Q → P = Q := fun P Q h => mul_left_cancel₀ hs2 h
  have hq : si' * si' = 1 - ci' ^ 2 := by linarith
  subst hc
  refine ⟨key _ _ ?_, key _ _ ?_, key _ _ ?_, key _ _ ?_, h4, by linarith⟩
  · have : si' * si' * (cN * cD - sN * sD * (ci * ce + si * se * cn)) =
        (si' * cN) * (si' * cD) - (si' * sN) * (si' * sD) * (ci * ce + si * se * cn) := by ring
    rw [this, h1, h2, h3, h4, hq]
    clear * - e1 e2 e3
    grind
  · have : si' * si' * (-(cN * sD) - sN * cD * (ci * ce + si * se * cn)) =
        -((si' * cN) * (si' * sD)) - (si' * sN) * (si' * cD) * (ci * ce + si * se * cn) := by ring
    rw [this, h1, h2, h3, h4, hq]
    clear * - e1 e2 e3
    grind
  · have : si' * si' * (sN * cD + cN * sD * (ci * ce + si * se * cn)) =
        (si' * sN) * (si' * cD) + (si' * cN) * (si' * sD) * (ci * ce + si * se * cn) := by ring
    rw [this, h1, h2, h3, h4, hq]
    clear * - e1 e2 e3
    grind
  · have : si' * si' * (-(sN * sD) + cN * cD * (ci * ce + si * se * cn)) =
        -((si' * sN) * (si' * sD)) + (si' * cN) * (si' * cD) * (ci * ce + si * se * cn) := by ring
    rw [this, h1, h2, h3, h4, hq]
    clear * - e1 e2 e3
    grind

/-- The same rotation carries the orbit: relations between the elements before and after a turn of the reference plane
about the first axis by −η. -/
theorem orbit_turn {i n i' N Δ η : ℝ} (u : ℝ) (hs : sin i' ≠ 0)
    (hc : cos i' = cos i * cos η + sin i * sin η * cos n)
    (h1 : sin i' * cos N = cos η * sin i * cos n - sin η * cos i) (h2 : sin i' * sin N = sin i * sin n)
    (h3 : sin i' * cos Δ = sin i * cos η - cos i * sin η * cos n) (h4 : sin i' * sin Δ = -sin η * sin n) :
    orbitDir i' N (u + Δ) = rotX (-η) (orbitDir i n u) := by
  obtain ⟨a1, a2, a3, a4, a5, a6⟩ := orbit_turn_alg hs (sin_sq_add_cos_sq i) (sin_sq_add_cos_sq n) (sin_sq_add_cos_sq η)
    (sin_sq_add_cos_sq i') hc h1 h2 h3 h4
  unfold orbitDir
  rw [rotX_vec, rotX_vec, rotZ_vec, rotZ_vec, rotX_vec, cos_neg, sin_neg, cos_add, sin_add]
  apply vec_eq
  · linear_combination cos u * a1 + sin u * a2
  · linear_combination cos u * a3 + sin u * a4
  · linear_combination cos u * a5 + sin u * a6

end Verif.Lemmas
