import Verif.Spec.Tangent
import Verif.Lemmas.Rotation
import Mathlib.Analysis.Calculus.Deriv.Prod
import Mathlib.Analysis.Calculus.FDeriv.WithLp
import Mathlib.Analysis.SpecialFunctions.Trigonometric.Deriv

namespace Verif.Lemmas

open Real Verif.Spec

theorem shift_vec (r d dr dd : ℝ) : shift r d dr dd =
    !₂[cos d * dr * -sin r + dd * (-sin d * cos r), cos d * dr * cos r + dd * (-sin d * sin r), dd * cos d] := by
  unfold shift east north
  ext i; fin_cases i <;> simp

theorem perp_vec (n0 n1 n2 v0 v1 v2 : ℝ) : perp !₂[n0, n1, n2] !₂[v0, v1, v2] =
    !₂[v0 - (v0 * n0 + v1 * n1 + v2 * n2) * n0, v1 - (v0 * n0 + v1 * n1 + v2 * n2) * n1,
       v2 - (v0 * n0 + v1 * n1 + v2 * n2) * n2] := by
  unfold perp
  rw [inner_vec]
  ext i; fin_cases i <;> simp

theorem cross_vec (a0 a1 a2 b0 b1 b2 : ℝ) : cross !₂[a0, a1, a2] !₂[b0, b1, b2] =
    !₂[a1 * b2 - a2 * b1, a2 * b0 - a0 * b2, a0 * b1 - a1 * b0] := by
  unfold cross; simp

/-- A moving vector is differentiated by components. -/
theorem hasDerivAt_vec {f g h : ℝ → ℝ} {f' g' h' t : ℝ} (h1 : HasDerivAt f f' t) (h2 : HasDerivAt g g' t) (h3 : HasDerivAt h h' t) :
    HasDerivAt (fun x => (!₂[f x, g x, h x] : V3)) !₂[f', g', h'] t := by
  have hp : HasDerivAt (fun x => (![f x, g x, h x] : Fin 3 → ℝ)) ![f', g', h'] t := by
    rw [hasDerivAt_pi]
    intro i; fin_cases i
    · exact h1
    · exact h2
    · exact h3
  exact ((PiLp.continuousLinearEquiv 2 ℝ (fun _ : Fin 3 => ℝ)).symm.toContinuousLinearMap.hasFDerivAt).comp_hasDerivAt t hp

/-- The displacement is the velocity of the moving direction. -/
theorem hasDerivAt_dir (r d dr dd : ℝ) : HasDerivAt (fun t => dir (r + dr * t) (d + dd * t)) (shift r d dr dd) 0 := by
  have a : HasDerivAt (fun t : ℝ => r + dr * t) dr 0 := by
    simpa using ((hasDerivAt_id (0 : ℝ)).const_mul dr).const_add r
  have b : HasDerivAt (fun t : ℝ => d + dd * t) dd 0 := by
    simpa using ((hasDerivAt_id (0 : ℝ)).const_mul dd).const_add d
  rw [shift_vec]
  unfold dir
  apply hasDerivAt_vec
  · exact (b.cos.mul a.cos).congr_deriv (by simp; ring)
  · exact (b.cos.mul a.sin).congr_deriv (by simp; ring)
  · exact b.sin.congr_deriv (by simp; ring)

end Verif.Lemmas
