import Verif.Props.SaturnRing
import Verif.Props.Nutation
import Verif.Props.Solar
import Mathlib.Topology.MetricSpace.Contracting
/-
C141: the two light-time passes of saturnring, mars and jupiter.
-/
namespace Verif.Props

open Real Verif.Go Verif.Model Verif.Model.PlanetPhys Verif.Spec Verif.Lemmas

/-- The heliocentric vector of a planet at time t, in the frame used at date jde. -/
noncomputable def helioAt (planet : Planet) (jde t : ℝ) : V3 :=
  let q := fk5At planet t jde
  q.2.2 • dir q.1 q.2.1

/-- The vector from the Sun to the Earth as used (its latitude left out of the first two coordinates). -/
noncomputable def earthVec (e : ℝ × ℝ × ℝ) : V3 := !₂[e.2.2 * cos e.1, e.2.2 * sin e.1, e.2.2 * sin e.2.1]

theorem gvec_pass (planet : Planet) (jde Δ : ℝ) (e : ℝ × ℝ × ℝ) :
    gvec (pass planet jde e Δ) = helioAt planet jde (jde - 0.0057755183 * Δ) - earthVec e := by
  unfold gvec pass helioAt earthVec Elliptic.LightTime dir
  dsimp only
  rw [smul_vec, sub_eq_add_neg (!₂[_, _, _] : V3), neg_vec, add_vec]
  apply vec_eq <;> ring

theorem passes_eq (planet : Planet) (jde Δ0 : ℝ) (e : ℝ × ℝ × ℝ) :
    passes planet jde e Δ0 = pass planet jde e (pass planet jde e Δ0).Δ := rfl

theorem pass_lipschitz (planet : Planet) (jde v : ℝ) (e : ℝ × ℝ × ℝ)
    (hv : ∀ t t', ‖helioAt planet jde t - helioAt planet jde t'‖ ≤ v * |t - t'|) (Δ Δ' : ℝ) :
    ‖gvec (pass planet jde e Δ) - gvec (pass planet jde e Δ')‖ ≤ v * 0.0057755183 * |Δ - Δ'| := by
  rw [gvec_pass, gvec_pass, sub_sub_sub_cancel_right]
  refine (hv _ _).trans (le_of_eq ?_)
  rw [show jde - 0.0057755183 * Δ - (jde - 0.0057755183 * Δ') = 0.0057755183 * (Δ' - Δ) by ring, abs_mul, abs_of_pos (by norm_num), abs_sub_comm]
  ring

/-- C141.  Let the planet move slower than light, at no more than v astronomical units a day.  There is one and only one distance D such that light
travelling D reaches the Earth now from where the planet then was.  After the two passes, started with the distance Δ0, the distance used differs from D
by at most (v/c)² |Δ0 − D|, and the vector from that of the planet at the time the light left by the same amount. -/
theorem C141_light_time (planet : Planet) (jde v Δ0 : ℝ) (e : ℝ × ℝ × ℝ) (h0 : 0 ≤ v) (h1 : v * 0.0057755183 < 1)
    (hv : ∀ t t', ‖helioAt planet jde t - helioAt planet jde t'‖ ≤ v * |t - t'|) :
    ∃ D : ℝ, ‖helioAt planet jde (jde - 0.0057755183 * D) - earthVec e‖ = D ∧
      (∀ D', ‖helioAt planet jde (jde - 0.0057755183 * D') - earthVec e‖ = D' → D' = D) ∧
      |(passes planet jde e Δ0).Δ - D| ≤ (v * 0.0057755183) ^ 2 * |Δ0 - D| ∧
      ‖gvec (passes planet jde e Δ0) - (helioAt planet jde (jde - 0.0057755183 * D) - earthVec e)‖ ≤ (v * 0.0057755183) ^ 2 * |Δ0 - D| := by
  obtain ⟨K, hK⟩ : ∃ K, K = v * 0.0057755183 := ⟨_, rfl⟩
  have K0 : 0 ≤ K := by rw [hK]; positivity
  rw [← hK] at h1 ⊢
  have hL := pass_lipschitz planet jde v e hv
  rw [← hK] at hL
  have hF : ∀ Δ Δ', |(pass planet jde e Δ).Δ - (pass planet jde e Δ').Δ| ≤ K * |Δ - Δ'| := by
    intro Δ Δ'
    rw [← gvec_norm, ← gvec_norm]
    exact (abs_norm_sub_norm_le _ _).trans (hL Δ Δ')
  have hcon : ContractingWith ⟨K, K0⟩ (fun Δ => (pass planet jde e Δ).Δ) := by
    refine ⟨by exact_mod_cast h1, ?_⟩
    apply LipschitzWith.of_dist_le_mul
    intro a b
    rw [Real.dist_eq, Real.dist_eq]
    exact hF a b
  obtain ⟨D, hD⟩ : ∃ D, D = ContractingWith.fixedPoint _ hcon := ⟨_, rfl⟩
  have hfix : (pass planet jde e D).Δ = D := by rw [hD]; exact ContractingWith.fixedPoint_isFixedPt hcon
  have hfx : ‖helioAt planet jde (jde - 0.0057755183 * D) - earthVec e‖ = D := by rw [← gvec_pass, gvec_norm, hfix]
  have step : |(pass planet jde e Δ0).Δ - D| ≤ K * |Δ0 - D| := by
    have := hF Δ0 D
    rwa [hfix] at this
  refine ⟨D, hfx, ?_, ?_, ?_⟩
  rotate_left
  · rw [passes_eq]
    have := hF (pass planet jde e Δ0).Δ D
    rw [hfix] at this
    calc _ ≤ K * |(pass planet jde e Δ0).Δ - D| := this
      _ ≤ K * (K * |Δ0 - D|) := mul_le_mul_of_nonneg_left step K0
      _ = _ := by ring
  · rw [passes_eq, ← gvec_pass]
    calc _ ≤ K * |(pass planet jde e Δ0).Δ - D| := hL _ _
      _ ≤ K * (K * |Δ0 - D|) := mul_le_mul_of_nonneg_left step K0
      _ = _ := by ring
  · intro D' h'
    rw [← gvec_pass, gvec_norm] at h'
    have := hF D' D
    rw [h', hfix] at this
    have h2 := abs_nonneg (D' - D)
    have : |D' - D| = 0 := by nlinarith
    exact sub_eq_zero.1 (abs_eq_zero.1 this)

/-- C141.  For Mars at less than 0.02 astronomical units a day, nearer than 3, the distance is right to 5·10⁻⁸; for Jupiter and Saturn, at less than
0.01 a day and nearer than 12, also. -/
theorem C141_planets (e m j s : Planet) (jde : ℝ) :
    ((∀ t t', ‖helioAt m jde t - helioAt m jde t'‖ ≤ 0.02 * |t - t'|) →
      ∀ D, ‖helioAt m jde (jde - 0.0057755183 * D) - earthVec (Mars.earth e jde)‖ = D → D ≤ 3 →
      |(Mars.mars e m jde).Δ - D| ≤ 0.00000005) ∧
    ((∀ t t', ‖helioAt j jde t - helioAt j jde t'‖ ≤ 0.01 * |t - t'|) →
      ∀ D, ‖helioAt j jde (jde - 0.0057755183 * D) - earthVec (Jupiter.earth e jde)‖ = D → D ≤ 12 →
      |(Jupiter.jupiter e j jde).Δ - D| ≤ 0.00000005) ∧
    ((∀ t t', ‖helioAt s jde t - helioAt s jde t'‖ ≤ 0.01 * |t - t'|) →
      ∀ D, ‖helioAt s jde (jde - 0.0057755183 * D) - earthVec (Ring.earth e jde)‖ = D → D ≤ 12 →
      |(Ring.saturn e s jde).Δ - D| ≤ 0.00000005) := by
  have key : ∀ (p : Planet) (E : ℝ × ℝ × ℝ) (v Δ0 D : ℝ), 0 ≤ v → v * 0.0057755183 < 1 →
      (∀ t t', ‖helioAt p jde t - helioAt p jde t'‖ ≤ v * |t - t'|) →
      ‖helioAt p jde (jde - 0.0057755183 * D) - earthVec E‖ = D → |(passes p jde E Δ0).Δ - D| ≤ (v * 0.0057755183) ^ 2 * |Δ0 - D| := by
    intro p E v Δ0 D v0 v1 hv hD
    have hL := pass_lipschitz p jde v E hv
    have K0 : 0 ≤ v * 0.0057755183 := by positivity
    have hF : ∀ Δ Δ', |(pass p jde E Δ).Δ - (pass p jde E Δ').Δ| ≤ v * 0.0057755183 * |Δ - Δ'| := by
      intro Δ Δ'
      rw [← gvec_norm, ← gvec_norm]
      exact (abs_norm_sub_norm_le _ _).trans (hL Δ Δ')
    rw [← gvec_pass, gvec_norm] at hD
    have s1 := hF Δ0 D
    have s2 := hF (pass p jde E Δ0).Δ D
    rw [hD] at s1 s2
    rw [passes_eq]
    calc _ ≤ v * 0.0057755183 * |(pass p jde E Δ0).Δ - D| := s2
      _ ≤ v * 0.0057755183 * (v * 0.0057755183 * |Δ0 - D|) := mul_le_mul_of_nonneg_left s1 K0
      _ = _ := by ring
  have bound : ∀ D Δ0 M : ℝ, 0 ≤ D → D ≤ M → 0 ≤ Δ0 → Δ0 ≤ M → |Δ0 - D| ≤ M := by
    intro D Δ0 M a b c d
    rw [abs_le]; constructor <;> linarith
  refine ⟨?_, ?_, ?_⟩
  · intro hv D hD h3
    have h := key m (Mars.earth e jde) 0.02 0.5 D (by norm_num) (by norm_num) hv hD
    have b := bound D 0.5 3 (by rw [← hD]; exact norm_nonneg _) h3 (by norm_num) (by norm_num)
    show |(passes _ _ _ _).Δ - D| ≤ _
    norm_num at h b ⊢
    linarith
  · intro hv D hD h3
    have h := key j (Jupiter.earth e jde) 0.01 4 D (by norm_num) (by norm_num) hv hD
    have b := bound D 4 12 (by rw [← hD]; exact norm_nonneg _) h3 (by norm_num) (by norm_num)
    show |(passes _ _ _ _).Δ - D| ≤ _
    norm_num at h b ⊢
    linarith
  · intro hv D hD h3
    have h := key s (Ring.earth e jde) 0.01 9 D (by norm_num) (by norm_num) hv hD
    have b := bound D 9 12 (by rw [← hD]; exact norm_nonneg _) h3 (by norm_num) (by norm_num)
    show |(passes _ _ _ _).Δ - D| ≤ _
    norm_num at h b ⊢
    linarith

/-- A planet on a circle of radius 5 at 0.001 radians a day satisfies the assumption with v = 0.01. -/
example : ∀ t t', ‖helioAt (fun t => (0.001 * t, 0, 5)) 2451545 t - helioAt (fun t => (0.001 * t, 0, 5)) 2451545 t'‖ ≤ 0.01 * |t - t'| := by
  have hs := sec_val
  have hf : ∀ t, helioAt (fun t => (0.001 * t, 0, 5)) 2451545 t =
      (5 : ℝ) • dir (0.001 * t - 0.09033 * Nutation.sec) (0.03916 * (cos (0.001 * t) - sin (0.001 * t)) * Nutation.sec) := by
    intro t
    unfold helioAt fk5At PlanetPos.ToFK5
    dsimp only
    rw [cent0, tan_zero]
    simp only [mul_zero, add_zero, zero_mul, zero_div, sub_zero, zero_add]
    congr 2
    ring
  intro t t'
  rw [hf, hf, ← smul_sub, norm_smul, norm_eq_abs, abs_of_pos (by norm_num)]
  have h := norm_dir_sub (0.001 * t - 0.09033 * Nutation.sec) (0.03916 * (cos (0.001 * t) - sin (0.001 * t)) * Nutation.sec)
    (0.001 * t' - 0.09033 * Nutation.sec) (0.03916 * (cos (0.001 * t') - sin (0.001 * t')) * Nutation.sec)
  have c := abs_cos_sub_cos (0.001 * t) (0.001 * t')
  have d := abs_sin_sub_sin (0.001 * t) (0.001 * t')
  have m : |0.001 * t - 0.001 * t'| = 0.001 * |t - t'| := by rw [← mul_sub, abs_mul, abs_of_pos (by norm_num)]
  rw [m] at c d
  have e1 : |0.001 * t - 0.09033 * Nutation.sec - (0.001 * t' - 0.09033 * Nutation.sec)| = 0.001 * |t - t'| := by
    rw [← m]; congr 1; ring
  have e2 : |0.03916 * (cos (0.001 * t) - sin (0.001 * t)) * Nutation.sec - 0.03916 * (cos (0.001 * t') - sin (0.001 * t')) * Nutation.sec| ≤
      0.001 * |t - t'| := by
    rw [show 0.03916 * (cos (0.001 * t) - sin (0.001 * t)) * Nutation.sec - 0.03916 * (cos (0.001 * t') - sin (0.001 * t')) * Nutation.sec =
      0.03916 * Nutation.sec * ((cos (0.001 * t) - cos (0.001 * t')) - (sin (0.001 * t) - sin (0.001 * t'))) by ring, abs_mul,
      abs_of_pos (by have := hs.1; positivity)]
    have q := abs_sub (cos (0.001 * t) - cos (0.001 * t')) (sin (0.001 * t) - sin (0.001 * t'))
    have n0 := abs_nonneg (t - t')
    have n1 := abs_nonneg (cos (0.001 * t) - cos (0.001 * t') - (sin (0.001 * t) - sin (0.001 * t')))
    have z : 0.03916 * Nutation.sec ≤ 0.1 := by linarith [hs.2]
    nlinarith
  have := abs_nonneg (t - t')
  linarith

end Verif.Props
