import Verif.Model.Sep64
import Verif.Props.Angle
import Verif.Props.Kepler64
/-
C190: angular separations in double precision.
-/
namespace Verif.Props

open Real Verif.Spec Verif.Model Verif.Go Verif.Go.F64 Verif.Go.F64.Ex

namespace Sep64v

open Sep64

/-- The environment of four angles of at most 8 radians. -/
def env4 : List (ℕ × ℕ) := [(8 * 2 ^ 64, 0), (8 * 2 ^ 64, 0), (8 * 2 ^ 64, 0), (8 * 2 ^ 64, 0)]

theorem env4_fits {r1 d1 r2 d2 : ℝ} (h1 : |r1| ≤ 8) (h2 : |d1| ≤ 8) (h3 : |r2| ≤ 8) (h4 : |d2| ≤ 8) :
    ∀ i p, env4[i]? = some p → Fits (args r1 d1 r2 d2 i) (args r1 d1 r2 d2 i) p := by
  have key : ∀ x : ℝ, |x| ≤ 8 → Fits x x (8 * 2 ^ 64, 0) := by
    intro x hx
    refine ⟨?_, by simp⟩
    norm_num
    exact hx
  intro i p hp
  unfold env4 at hp
  rcases i with _ | _ | _ | _ | i <;> simp at hp
  · subst hp; exact key _ h1
  · subst hp; exact key _ h2
  · subst hp; exact key _ h3
  · subst hp; exact key _ h4

theorem sin_between {a x : ℝ} (h0 : 0 ≤ a) (h1 : a ≤ x) (h2 : x ≤ π - a) : Real.sin a ≤ Real.sin x := by
  have hπ := pi_pos
  rcases le_or_gt x (π / 2) with h | h
  · exact sin_le_sin_of_le_of_le_pi_div_two (by linarith) h h1
  · rw [← Real.sin_pi_sub x]
    exact sin_le_sin_of_le_of_le_pi_div_two (by linarith) (by linarith) (by linarith)

theorem arccos_close {a σ δ : ℝ} (h0 : -1 ≤ a) (h1 : a ≤ 1) (s0 : π / 1080 ≤ σ) (s1 : σ ≤ π - π / 1080) (h : |a - Real.cos σ| ≤ δ) :
    |arccos a - σ| ≤ 1100 * δ := by
  have hπ := pi_pos
  have hπ3 := pi_gt_d2
  have hπ4 := pi_lt_d2
  have t0 := arccos_nonneg a
  have t1 := arccos_le_pi a
  have hc := cos_arccos h0 h1
  set τ := arccos a
  rw [← hc, Real.cos_sub_cos, abs_mul, abs_mul, abs_neg, abs_two] at h
  have m1 : Real.sin (π / 2160) ≤ Real.sin ((τ + σ) / 2) := sin_between (by linarith) (by linarith) (by linarith)
  have m2 := sin_lower (x := π / 2160) (by linarith) (by norm_num; linarith)
  have m3 : 0.001452 ≤ Real.sin ((τ + σ) / 2) := by
    norm_num at m2 ⊢
    linarith
  have m4 : 0 ≤ Real.sin ((τ + σ) / 2) := le_trans (by norm_num) m3
  rw [abs_of_nonneg m4] at h
  have hd : |(τ - σ) / 2| ≤ π / 2 := by
    rw [abs_le]
    constructor <;> linarith
  have m5 := mul_abs_le_abs_sin hd
  have m6 : 2 / π * |(τ - σ) / 2| = |τ - σ| / π := by
    rw [abs_div, abs_two]; field_simp
  rw [m6, div_le_iff₀ hπ] at m5
  have m7 : 0.002904 * |Real.sin ((τ - σ) / 2)| ≤ δ := by
    refine le_trans ?_ h
    apply mul_le_mul_of_nonneg_right _ (abs_nonneg _)
    norm_num at m3 ⊢
    linarith
  have m8 := abs_nonneg (Real.sin ((τ - σ) / 2))
  have hδ : 0 ≤ δ := (mul_nonneg (by norm_num) m8).trans m7
  generalize |Real.sin ((τ - σ) / 2)| = w at *
  have m9 : w * π ≤ w * 3.15 := mul_le_mul_of_nonneg_left hπ4.le m8
  norm_num at m7 m9 ⊢
  linarith

theorem cd_v (r1 d1 r2 d2 : ℝ) : cd.val (args r1 d1 r2 d2) = Real.cos (sep r1 d1 r2 d2) := by
  obtain ⟨b1, b2⟩ := dot_bounds r1 d1 r2 d2
  rw [Lemmas.sep_eq, cos_arccos b1 b2]
  rfl

theorem pz_v (r1 d1 r2 d2 : ℝ) : pz.val (args r1 d1 r2 d2) = Real.cos (sep r1 d1 r2 d2) := by
  rw [← cd_v]
  show Real.sin d1 * Real.sin d2 + Real.cos d1 * Real.cos d2 * Real.cos (r2 - r1) = Real.sin d1 * Real.sin d2 + Real.cos d1 * Real.cos d2 * Real.cos (r1 - r2)
  rw [← neg_sub r1 r2, Real.cos_neg]

theorem sep_range (r1 d1 r2 d2 : ℝ) : 0 ≤ sep r1 d1 r2 d2 ∧ sep r1 d1 r2 d2 ≤ π := by
  rw [Lemmas.sep_eq]
  exact ⟨arccos_nonneg _, arccos_le_pi _⟩

theorem hypot_v (r1 d1 r2 d2 : ℝ) : Angle.hypot (px.val (args r1 d1 r2 d2)) (py.val (args r1 d1 r2 d2)) = Real.sin (sep r1 d1 r2 d2) := by
  obtain ⟨s0, s1⟩ := sep_range r1 d1 r2 d2
  have hs : 0 ≤ Real.sin (sep r1 d1 r2 d2) := sin_nonneg_of_nonneg_of_le_pi s0 s1
  unfold Angle.hypot
  rw [← sqrt_sq hs]
  congr 1
  have e0 := Real.sin_sq_add_cos_sq (sep r1 d1 r2 d2)
  rw [← pz_v] at e0
  have e2 := Real.sin_sq_add_cos_sq d1
  have e3 := Real.sin_sq_add_cos_sq d2
  have e4 := Real.sin_sq_add_cos_sq (r2 - r1)
  have : (px.val (args r1 d1 r2 d2)) ^ 2 + (py.val (args r1 d1 r2 d2)) ^ 2 + (pz.val (args r1 d1 r2 d2)) ^ 2 = 1 := by
    show (Real.cos d1 * Real.sin d2 - Real.sin d1 * Real.cos d2 * Real.cos (r2 - r1)) ^ 2 + (Real.cos d2 * Real.sin (r2 - r1)) ^ 2 +
      (Real.sin d1 * Real.sin d2 + Real.cos d1 * Real.cos d2 * Real.cos (r2 - r1)) ^ 2 = 1
    have a1 : Real.sin d1 ^ 2 = 1 - Real.cos d1 ^ 2 := by linarith
    have a3 : Real.sin d2 ^ 2 = 1 - Real.cos d2 ^ 2 := by linarith
    have a4 : Real.sin (r2 - r1) ^ 2 = 1 - Real.cos (r2 - r1) ^ 2 := by linarith
    generalize Real.sin (r2 - r1) = sr at *
    generalize Real.cos (r2 - r1) = cr at *
    generalize Real.sin d1 = s1 at *
    generalize Real.cos d1 = c1 at *
    generalize Real.sin d2 = s2 at *
    generalize Real.cos d2 = c2 at *
    have : (c1 * s2 - s1 * c2 * cr) ^ 2 + (c2 * sr) ^ 2 + (s1 * s2 + c1 * c2 * cr) ^ 2 = (c1 ^ 2 + s1 ^ 2) * (s2 ^ 2 + c2 ^ 2 * cr ^ 2) + c2 ^ 2 * sr ^ 2 := by ring
    rw [this, a1, a3, a4]
    ring
  linarith

theorem hypot_lip (x y x' y' : ℝ) : |Angle.hypot x' y' - Angle.hypot x y| ≤ |x' - x| + |y' - y| := by
  have key : ∀ a b : ℝ, Angle.hypot a b = ‖(⟨a, b⟩ : ℂ)‖ := by
    intro a b
    rw [Complex.norm_def, Complex.normSq_apply]; unfold Angle.hypot; congr 1; simp; ring
  rw [key, key]
  refine (abs_norm_sub_norm_le _ _).trans ?_
  refine (Complex.norm_le_abs_re_add_abs_im _).trans ?_
  simp

/-- A point near the unit circle, seen from the centre. -/
theorem atan2_close {h z σ ε : ℝ} (s0 : 0 ≤ σ) (s1 : σ ≤ π) (h0 : 0 ≤ h) (hε : ε ≤ 1 / 100) (e : |h - Real.sin σ| + |z - Real.cos σ| ≤ ε) :
    |Verif.Go.atan2 h z - σ| ≤ 1.6 * ε := by
  obtain ⟨p1, p2⟩ := atan2_polar h z
  obtain ⟨q1, q2⟩ := atan2_range h z
  have hθ : 0 ≤ Verif.Go.atan2 h z := Complex.arg_nonneg_iff.mpr h0
  set θ := Verif.Go.atan2 h z
  set ρ := √(z ^ 2 + h ^ 2) with hρ
  have n1 := abs_nonneg (h - Real.sin σ)
  have n2 := abs_nonneg (z - Real.cos σ)
  have hε0 : 0 ≤ ε := by linarith
  have hlip := hypot_lip (Real.cos σ) (Real.sin σ) z h
  have hu : Angle.hypot (Real.cos σ) (Real.sin σ) = 1 := by
    unfold Angle.hypot; rw [Real.cos_sq_add_sin_sq, sqrt_one]
  have hρ' : Angle.hypot z h = ρ := rfl
  rw [hu, hρ'] at hlip
  have hρ1 : 1 - ε ≤ ρ := by
    have := (abs_le.mp (hlip.trans (by linarith : _ ≤ ε))).1
    linarith
  have hρ0 : 0 < ρ := by linarith
  have es : ρ * Real.sin (θ - σ) = (h - Real.sin σ) * Real.cos σ - (z - Real.cos σ) * Real.sin σ := by
    rw [Real.sin_sub]
    linear_combination (Real.cos σ) * p2 - (Real.sin σ) * p1
  have ec : ρ * Real.cos (θ - σ) = 1 + (h - Real.sin σ) * Real.sin σ + (z - Real.cos σ) * Real.cos σ := by
    rw [Real.cos_sub]
    linear_combination (Real.sin σ) * p2 + (Real.cos σ) * p1 + Real.sin_sq_add_cos_sq σ
  have bs : |ρ * Real.sin (θ - σ)| ≤ ε := by
    rw [es]
    refine (abs_sub _ _).trans ?_
    rw [abs_mul, abs_mul]
    have := mul_le_mul_of_nonneg_left (abs_cos_le_one σ) n1
    have := mul_le_mul_of_nonneg_left (abs_sin_le_one σ) n2
    linarith
  have bc : 0 < Real.cos (θ - σ) := by
    have : |(h - Real.sin σ) * Real.sin σ + (z - Real.cos σ) * Real.cos σ| ≤ ε := by
      refine (abs_add_le _ _).trans ?_
      rw [abs_mul, abs_mul]
      have := mul_le_mul_of_nonneg_left (abs_sin_le_one σ) n1
      have := mul_le_mul_of_nonneg_left (abs_cos_le_one σ) n2
      linarith
    have := (abs_le.mp this).1
    have h3 : 0 < ρ * Real.cos (θ - σ) := by rw [ec]; linarith
    exact pos_of_mul_pos_right h3 hρ0.le
  have hd : |θ - σ| ≤ π / 2 := by
    rw [abs_le]
    by_contra hc
    rw [not_and_or, not_le, not_le] at hc
    rcases hc with hc | hc
    · have := Real.cos_nonpos_of_pi_div_two_le_of_le (x := σ - θ) (by linarith) (by linarith)
      rw [← Real.cos_neg, neg_sub] at this
      linarith
    · have := Real.cos_nonpos_of_pi_div_two_le_of_le (x := θ - σ) (by linarith) (by linarith)
      linarith
  have m := mul_abs_le_abs_sin hd
  rw [abs_mul, abs_of_pos hρ0] at bs
  have hπ := pi_pos
  have hπ4 := pi_lt_d2
  have m2 : 2 * |θ - σ| ≤ π * |Real.sin (θ - σ)| := by
    have : 2 / π * |θ - σ| = 2 * |θ - σ| / π := by ring
    rw [this, div_le_iff₀ hπ] at m
    linarith
  have w0 := abs_nonneg (Real.sin (θ - σ))
  generalize |Real.sin (θ - σ)| = w at *
  have m3 : π * w ≤ 3.15 * w := mul_le_mul_of_nonneg_right hπ4.le w0
  have m4 : (1 - ε) * w ≤ ε := (mul_le_mul_of_nonneg_right hρ1 w0).trans bs
  have m5 : (99 / 100) * w ≤ ε := le_trans (mul_le_mul_of_nonneg_right (by linarith) w0) m4
  norm_num at m3 ⊢
  linarith

/-- The cosine of 10′ and near it. -/
theorem cos_ten : Real.cos (π / 1080) ≤ 1 - 1e-6 ∧ Real.cos (π / 1080 + 1e-11) ≤ Real.cos (π / 1080) - 2e-14 ∧
    Real.cos (π / 1080) ≤ Real.cos (π / 1080 - 1e-11) - 2e-14 := by
  have hπ := pi_pos
  have hπ3 := pi_gt_d2
  have hπ4 := pi_lt_d2
  have step : ∀ u : ℝ, 0.0029 ≤ u → u ≤ 0.003 → Real.cos (u + 1e-11) ≤ Real.cos u - 2e-14 := by
    intro u u0 u1
    have e := Real.cos_sub_cos u (u + 1e-11)
    have a1 : (u + (u + 1e-11)) / 2 = u + 1 / 200000000000 := by norm_num; ring
    have a2 : (u - (u + 1e-11)) / 2 = -(1 / 200000000000) := by norm_num
    rw [a1, a2, Real.sin_neg] at e
    have l1 := sin_lower (x := 1 / 200000000000) (by norm_num) (by norm_num)
    have l2 := sin_lower (x := u + 1 / 200000000000) (by norm_num at u0 ⊢; linarith) (by norm_num at u1 ⊢; linarith)
    have l3 : 28 / 10000 ≤ Real.sin (u + 1 / 200000000000) := by norm_num at l2 u0 ⊢; linarith
    have l4 : 49 / 10000000000000 ≤ Real.sin (1 / 200000000000) := by norm_num at l1 ⊢; linarith
    have l5 := mul_le_mul l3 l4 (by norm_num) (le_trans (by norm_num) l3)
    norm_num at l5 e ⊢
    linarith
  refine ⟨?_, step _ (by norm_num; linarith) (by norm_num; linarith), ?_⟩
  · have e := Real.cos_two_mul (π / 2160)
    rw [show 2 * (π / 2160) = π / 1080 by ring, Real.cos_sq'] at e
    have l := sin_lower (x := π / 2160) (by linarith) (by norm_num; linarith)
    have l2 : 1 / 1000 ≤ Real.sin (π / 2160) := by norm_num at l ⊢; linarith
    rw [e]
    norm_num
    nlinarith
  · have := step (π / 1080 - 1e-11) (by norm_num; linarith) (by norm_num; linarith)
    rwa [sub_add_cancel] at this

theorem le_fl_zero {x : ℝ} (h : 0 ≤ x) : 0 ≤ fl x := by
  have := fl_mono h
  rwa [fl_zero] at this

end Sep64v

open Sep64v Sep64

/-- SepPauwels in double precision is the true separation to 4·10⁻¹⁴ radian, wherever the two bodies are. -/
theorem C190_pauwels {l : Trig} (hl : l.Ok) {f : Inv} (hf : f.Ok) {r1 d1 r2 d2 out : ℝ} (h1 : |r1| ≤ 8) (h2 : |d1| ≤ 8) (h3 : |r2| ≤ 8) (h4 : |d2| ≤ 8)
    (h : Sep64.SepPauwels l f r1 d1 r2 d2 out) : |out - sep r1 d1 r2 d2| ≤ 4e-14 := by
  obtain ⟨x, y, z, hx, hy, hz, rfl⟩ := h
  have ex := (within_bound hl (env4_fits h1 h2 h3 h4) hx (m := 2 ^ 66) (ε := 2518089515214944629628972) (by decide +kernel)).2
  have ey := (within_bound hl (env4_fits h1 h2 h3 h4) hy (m := 2 ^ 66) (ε := 1327101230991660007507160) (by decide +kernel)).2
  have ez := (within_bound hl (env4_fits h1 h2 h3 h4) hz (m := 2 ^ 66) (ε := 2518089515214944629628972) (by decide +kernel)).2
  rw [pz_v] at ez
  have ex' := ex.trans (show _ ≤ (74e-16 : ℝ) by norm_num)
  have ey' := ey.trans (show _ ≤ (39e-16 : ℝ) by norm_num)
  have ez' := ez.trans (show _ ≤ (74e-16 : ℝ) by norm_num)
  have eh := hypot_lip (px.val (args r1 d1 r2 d2)) (py.val (args r1 d1 r2 d2)) x y
  rw [hypot_v] at eh
  obtain ⟨s0, s1⟩ := sep_range r1 d1 r2 d2
  generalize sep r1 d1 r2 d2 = σ at *
  have eh' : |Angle.hypot x y - Real.sin σ| ≤ 113e-16 := eh.trans (by norm_num at ex' ey' ⊢; linarith)
  have hb : Angle.hypot x y ≤ 1.01 := by
    have := (abs_le.mp eh').2
    have := Real.sin_le_one σ
    norm_num at *
    linarith
  have hh := hf.hypot x y
  have hh' : |f.hypot x y - Angle.hypot x y| ≤ 1.01e-15 := hh.trans (by norm_num at hb ⊢; linarith)
  have e1 : |f.hypot x y - Real.sin σ| ≤ 124e-16 := by
    refine (abs_sub_le _ (Angle.hypot x y) _).trans ?_
    norm_num at hh' eh' ⊢
    linarith
  have h0 : 0 ≤ f.hypot x y := by
    have a := (abs_le.mp hh).1
    have b : 0 ≤ Angle.hypot x y := sqrt_nonneg _
    norm_num at a
    linarith
  have e2 : |f.hypot x y - Real.sin σ| + |z - Real.cos σ| ≤ 1 / 50000000000000 := by
    norm_num at e1 ez' ⊢
    linarith
  have c := atan2_close s0 s1 h0 (by norm_num) e2
  have c2 := hf.atan2 _ z h0
  refine (abs_sub_le _ (Verif.Go.atan2 (f.hypot x y) z) _).trans ?_
  refine (add_le_add c2 c).trans ?_
  norm_num

/-- Sep in double precision: from 10′ to 180° − 10′ the true separation to 10⁻¹¹ radian, below 10′ the formula for small separations to 6·10⁻¹⁴ radian.
`t` is base.CosSmallAngle, the cosine of 10′ rounded. -/
theorem C190_sep {l : Trig} (hl : l.Ok) {f : Inv} (hf : f.Ok) {t r1 d1 r2 d2 out : ℝ} (ht : |t - Real.cos (π / 1080)| ≤ 1e-14)
    (h1 : |r1| ≤ 8) (h2 : |d1| ≤ 8) (h3 : |r2| ≤ 8) (h4 : |d2| ≤ 8) (h : Sep64.Sep l f t r1 d1 r2 d2 out) :
    (π / 1080 + 1e-11 ≤ sep r1 d1 r2 d2 → sep r1 d1 r2 d2 ≤ π - π / 1080 → |out - sep r1 d1 r2 d2| ≤ 1e-11) ∧
    (sep r1 d1 r2 d2 ≤ π / 1080 - 1e-11 → |out - Angle.hypot ((r2 - r1) * Real.cos d1) (d2 - d1)| ≤ 6e-14) := by
  obtain ⟨c, hc, ho⟩ := h
  have ec := (within_bound hl (env4_fits h1 h2 h3 h4) hc (m := 2 ^ 66) (ε := 2518089515214944629628972) (by decide +kernel)).2
  rw [cd_v] at ec
  have ec' := ec.trans (show _ ≤ (74e-16 : ℝ) by norm_num)
  clear ec
  obtain ⟨s0, s1⟩ := sep_range r1 d1 r2 d2
  generalize sep r1 d1 r2 d2 = σ at *
  have hπ := pi_pos
  have hπ3 := pi_gt_d2
  have hπ4 := pi_lt_d2
  obtain ⟨k1, k2, k3⟩ := cos_ten
  constructor
  · intro g1 g2
    have g3 : Real.cos σ ≤ Real.cos (π / 1080 + 1e-11) := Real.cos_le_cos_of_nonneg_of_le_pi (by positivity) s1 g1
    have g4 : Real.cos (π - π / 1080) ≤ Real.cos σ := Real.cos_le_cos_of_nonneg_of_le_pi s0 (by linarith) g2
    rw [Real.cos_pi_sub] at g4
    obtain ⟨b1, b2⟩ := abs_le.mp ec'
    obtain ⟨b3, b4⟩ := abs_le.mp ht
    have lt : c < t := by
      norm_num at b1 b2 b3 b4 k2 g3 ⊢
      linarith
    rcases ho with ⟨_, rfl⟩ | ⟨hn, _⟩
    · have c1 : -1 ≤ c := by
        norm_num at b1 k1 ⊢
        linarith
      have c2 : c ≤ 1 := by
        norm_num at b2 k1 k2 g3 ⊢
        linarith
      have e1 := arccos_close c1 c2 (by norm_num at g1 ⊢; linarith) g2 ec'
      have e2 := hf.acos c (abs_le.mpr ⟨c1, c2⟩)
      refine (abs_sub_le _ (arccos c) _).trans ((add_le_add e2 e1).trans ?_)
      norm_num
    · exact absurd lt hn
  · intro g1
    have g3 : Real.cos (π / 1080 - 1e-11) ≤ Real.cos σ := Real.cos_le_cos_of_nonneg_of_le_pi s0 (by norm_num; linarith) g1
    obtain ⟨b1, b2⟩ := abs_le.mp ec'
    obtain ⟨b3, b4⟩ := abs_le.mp ht
    have lt : ¬ c < t := by
      rw [not_lt]
      norm_num at b1 b2 b3 b4 k3 g3 ⊢
      linarith
    rcases ho with ⟨hn, _⟩ | ⟨_, x, y, hx, hy, rfl⟩
    · exact absurd hn lt
    · have ex := (within_bound hl (env4_fits h1 h2 h3 h4) hx (m := 2 ^ 69) (ε := 6805647338418769269267492) (by decide +kernel)).2
      have ey := (within_bound hl (env4_fits h1 h2 h3 h4) hy (m := 2 ^ 69) (ε := 680564733841876926926749) (by decide +kernel)).2
      have vx : ((v 2 - v 0) * cos (v 1)).val (args r1 d1 r2 d2) = (r2 - r1) * Real.cos d1 := rfl
      have vy : (v 3 - v 1).val (args r1 d1 r2 d2) = d2 - d1 := rfl
      rw [vx] at ex
      rw [vy] at ey
      have ex' : |x - (r2 - r1) * Real.cos d1| ≤ 2 / 100000000000000 := ex.trans (by norm_num)
      have ey' : |y - (d2 - d1)| ≤ 2 / 1000000000000000 := ey.trans (by norm_num)
      have lip := hypot_lip ((r2 - r1) * Real.cos d1) (d2 - d1) x y
      have size := hypot_lip 0 0 ((r2 - r1) * Real.cos d1) (d2 - d1)
      have z0 : Angle.hypot 0 0 = 0 := by simp [Angle.hypot]
      rw [z0, sub_zero, sub_zero, sub_zero] at size
      have p1 : |(r2 - r1) * Real.cos d1| ≤ 16 := by
        rw [abs_mul]
        have : |r2 - r1| ≤ 16 := (abs_sub _ _).trans (by linarith)
        calc |r2 - r1| * |Real.cos d1| ≤ 16 * 1 := mul_le_mul this (abs_cos_le_one _) (abs_nonneg _) (by norm_num)
          _ = 16 := by norm_num
      have p2 : |d2 - d1| ≤ 16 := (abs_sub _ _).trans (by linarith)
      have hh := hf.hypot x y
      have s3 := (abs_le.mp size).2
      have s4 := (abs_le.mp lip).2
      have hb : 1e-15 * Angle.hypot x y ≤ 33 / 1000000000000000 := by norm_num; linarith
      refine (abs_sub_le _ (Angle.hypot x y) _).trans ((add_le_add (hh.trans hb) lip).trans ?_)
      norm_num
      linarith

namespace Sep64v

theorem havSum_v (r1 d1 r2 d2 : ℝ) : havSum.val (args r1 d1 r2 d2) = (1 - Real.cos (sep r1 d1 r2 d2)) / 2 := by
  rw [← pz_v]
  have e : havSum.val (args r1 d1 r2 d2) = ((5 : ℤ) : ℝ) / (10 : ℕ) * (((1 : ℤ) : ℝ) / (1 : ℕ) - Real.cos (d2 - d1)) +
      Real.cos d1 * Real.cos d2 * (((5 : ℤ) : ℝ) / (10 : ℕ) * (((1 : ℤ) : ℝ) / (1 : ℕ) - Real.cos (r2 - r1))) := rfl
  have e2 : pz.val (args r1 d1 r2 d2) = Real.sin d1 * Real.sin d2 + Real.cos d1 * Real.cos d2 * Real.cos (r2 - r1) := rfl
  rw [e, e2, Real.cos_sub d2 d1]
  push_cast
  ring

theorem two_arcsin {s : ℝ} (h0 : 0 ≤ s) (h1 : s ≤ 1) : 2 * arcsin s = arccos (1 - 2 * s ^ 2) := by
  have a := arcsin_nonneg.mpr h0
  have b := arcsin_le_pi_div_two s
  have e : Real.cos (2 * arcsin s) = 1 - 2 * s ^ 2 := by
    rw [Real.cos_two_mul, Real.cos_sq', sin_arcsin (by linarith) h1]; ring
  rw [← e, arccos_cos (by linarith) (by linarith)]

theorem sqrt64 {h : ℝ} (h0 : 0 ≤ h) (h1 : h ≤ 1) : |fl (√h) ^ 2 - h| ≤ 3 / 10000000000000000 := by
  have e := fl_err (√h)
  have s0 := sqrt_nonneg h
  have s1 : √h ≤ 1 := by rw [sqrt_le_left (by norm_num)]; norm_num; exact h1
  rw [abs_of_nonneg s0] at e
  have e' : |fl (√h) - √h| ≤ 12 / 100000000000000000 := by
    refine e.trans ?_
    norm_num
    linarith
  have sq := sq_sqrt h0
  have : fl (√h) ^ 2 - h = (fl (√h) - √h) * (fl (√h) - √h + 2 * √h) := by linear_combination sq
  rw [this, abs_mul]
  have : |fl (√h) - √h + 2 * √h| ≤ 201 / 100 := by
    obtain ⟨a, b⟩ := abs_le.mp e'
    rw [abs_le]
    constructor <;> linarith
  calc |fl (√h) - √h| * |fl (√h) - √h + 2 * √h| ≤ 12 / 100000000000000000 * (201 / 100) := mul_le_mul e' this (abs_nonneg _) (by norm_num)
    _ ≤ _ := by norm_num

theorem sin_expand {x y : ℝ} (x0 : 0 ≤ x) (x1 : x ≤ 1 / 100) (y0 : 0 ≤ y) (y1 : y ≤ 1 / 100) : 98 / 100 * |x - y| ≤ |Real.sin x - Real.sin y| := by
  rw [Real.sin_sub_sin, abs_mul, abs_mul, abs_two]
  have c : 99 / 100 ≤ |Real.cos ((x + y) / 2)| := by
    refine le_trans ?_ (le_abs_self _)
    refine le_trans ?_ (Real.one_sub_sq_div_two_le_cos)
    nlinarith
  have sl : 999 / 1000 * (|x - y| / 2) ≤ |Real.sin ((x - y) / 2)| := by
    have b : |x - y| ≤ 1 / 100 := by rw [abs_le]; constructor <;> linarith
    have l := sin_lower (x := |x - y| / 2) (by positivity) (by norm_num; linarith)
    have p := abs_nonneg (x - y)
    have q : Real.sin (|x - y| / 2) ≤ |Real.sin ((x - y) / 2)| := by
      rcases le_total 0 (x - y) with g | g
      · rw [abs_of_nonneg g]; exact le_abs_self _
      · rw [abs_of_nonpos g, neg_div, Real.sin_neg]; exact neg_le_abs _
    norm_num at l ⊢
    linarith
  have p := abs_nonneg (x - y)
  have := mul_le_mul sl c (by norm_num) (abs_nonneg _)
  nlinarith

theorem fl_one' : fl 1 = 1 := fl_rep (by have := rep_int (n := 1) (by norm_num); simpa using this)

theorem fl_cos_one {x : ℝ} (h : |x| ≤ 1e-8) : fl (Real.cos x) = 1 := by
  have c := Real.one_sub_sq_div_two_le_cos (x := x)
  have c1 := Real.cos_le_one x
  have hx : x ^ 2 ≤ 1 / 10000000000000000 := by
    rw [← sq_abs]
    calc |x| ^ 2 ≤ (1e-8) ^ 2 := pow_le_pow_left₀ (abs_nonneg _) h 2
      _ ≤ _ := by norm_num
  have u : fl (Real.cos x) ≤ 1 := by
    have := fl_mono c1
    rwa [fl_one'] at this
  rcases u.lt_or_eq with g | g
  · exfalso
    have r := Kepler64.rep_lt_one (rep_fl _) g
    have b := fl_best (Real.cos x) (z := 1) (by have := rep_int (n := 1) (by norm_num); simpa using this)
    rw [abs_of_nonneg (show (0:ℝ) ≤ 1 - Real.cos x by linarith)] at b
    have := (abs_le.mp b).1
    norm_num at r
    linarith
  · exact g

theorem one_sub_cos {l : Trig} (hc : ∀ x, l.cos x = fl (Real.cos x)) {ρ : ℕ → ℝ} {a : Ex} (ha : ∀ x, Run l ρ a x → |x| ≤ 1e-8) {y : ℝ}
    (hy : Run l ρ (q 1 1 - cos a) y) : y = 0 := by
  cases hy with
  | sub u w =>
    cases u
    cases w with
    | cos w =>
      rw [hc, fl_cos_one (ha _ w)]
      have : cval 1 1 false = 1 := by simp [cval]
      rw [this, fl_one', sub_self, fl_zero]

end Sep64v

/-- SepHav in double precision: from 10′ to 180° − 10′ the argument of the square root is in [0, 1] and the result is the true separation to 2·10⁻¹¹ radian. -/
theorem C190_hav_partial {l : Trig} (hl : l.Ok) {f : Inv} (hf : f.Ok) {r1 d1 r2 d2 : ℝ} (h1 : |r1| ≤ 8) (h2 : |d1| ≤ 8) (h3 : |r2| ≤ 8) (h4 : |d2| ≤ 8)
    (s0 : π / 1080 ≤ sep r1 d1 r2 d2) (s1 : sep r1 d1 r2 d2 ≤ π - π / 1080) :
    (∀ h, Run l (args r1 d1 r2 d2) havSum h → 0 ≤ h ∧ h ≤ 1) ∧ ∀ out, Sep64.SepHav l f r1 d1 r2 d2 out → |out - sep r1 d1 r2 d2| ≤ 2e-11 := by
  obtain ⟨k1, k2, k3⟩ := cos_ten
  obtain ⟨p0, p1⟩ := sep_range r1 d1 r2 d2
  have hπ := pi_pos
  have key : ∀ h, Run l (args r1 d1 r2 d2) havSum h → |h - (1 - Real.cos (sep r1 d1 r2 d2)) / 2| ≤ 59 / 10000000000000000 := by
    intro h hr
    have e := (within_bound hl (env4_fits h1 h2 h3 h4) hr (m := 2 ^ 68) (ε := 2007665964833536934433910) (by decide +kernel)).2
    rw [havSum_v] at e
    exact e.trans (by norm_num)
  generalize sep r1 d1 r2 d2 = σ at *
  have g3 : Real.cos σ ≤ Real.cos (π / 1080) := Real.cos_le_cos_of_nonneg_of_le_pi (by positivity) p1 s0
  have g4 : Real.cos (π - π / 1080) ≤ Real.cos σ := Real.cos_le_cos_of_nonneg_of_le_pi p0 (by linarith) s1
  rw [Real.cos_pi_sub] at g4
  have range : ∀ h, Run l (args r1 d1 r2 d2) havSum h → 1e-8 ≤ h ∧ h ≤ 1 - 1e-8 := by
    intro h hr
    obtain ⟨a, b⟩ := abs_le.mp (key h hr)
    norm_num at k1 ⊢
    constructor <;> linarith
  refine ⟨fun h hr => ?_, ?_⟩
  · obtain ⟨a, b⟩ := range h hr
    norm_num at a b
    constructor <;> linarith
  · rintro out ⟨h, hr, rfl⟩
    obtain ⟨a, b⟩ := range h hr
    norm_num at a b
    have q := sqrt64 (h := h) (by linarith) (by linarith)
    obtain ⟨q1, q2⟩ := abs_le.mp q
    have f0 : 0 ≤ fl (√h) := le_fl_zero (sqrt_nonneg h)
    set s := fl (√h)
    have f1 : s ≤ 1 := by nlinarith
    have e1 := two_arcsin f0 f1
    have e2 := arccos_close (a := 1 - 2 * s ^ 2) (δ := 125 / 10000000000000000) (by nlinarith) (by nlinarith) s0 s1 (by
      obtain ⟨w1, w2⟩ := abs_le.mp (key h hr)
      rw [abs_le]; constructor <;> linarith)
    rw [← e1] at e2
    have e3 := hf.asin s (abs_le.mpr ⟨by linarith, f1⟩)
    have e4 := fl_err (2 * f.asin s)
    obtain ⟨u1, u2⟩ := abs_le.mp e3
    have v1 := arcsin_nonneg.mpr f0
    have v2 := arcsin_le_pi_div_two s
    have hπ4 := pi_lt_d2
    have e5 : |2 * f.asin s| ≤ 4 := by
      norm_num at u1 u2
      rw [abs_le]; constructor <;> linarith
    have e6 : |fl (2 * f.asin s) - 2 * f.asin s| ≤ 1 / 1000000000000000 := by
      refine e4.trans ?_
      have : |2 * f.asin s| / 2 ^ 53 ≤ 4 / 2 ^ 53 := by gcongr
      norm_num at this ⊢
      linarith
    have e7 : |2 * f.asin s - 2 * arcsin s| ≤ 2e-12 := by
      rw [← mul_sub, abs_mul, abs_two]
      norm_num at e3 ⊢
      linarith
    refine (abs_sub_le _ (2 * f.asin s) _).trans ((add_le_add e6 ((abs_sub_le _ (2 * arcsin s) _).trans (add_le_add e7 e2))).trans ?_)
    norm_num

/-- Below 10′ the error may reach 3·10⁻⁷ radian, if the argument of the square root is not negative. -/
theorem C190_hav_small_partial {l : Trig} (hl : l.Ok) {f : Inv} (hf : f.Ok) {r1 d1 r2 d2 h : ℝ} (h1 : |r1| ≤ 8) (h2 : |d1| ≤ 8) (h3 : |r2| ≤ 8) (h4 : |d2| ≤ 8)
    (s1 : sep r1 d1 r2 d2 ≤ π / 1080) (hr : Run l (args r1 d1 r2 d2) havSum h) (hh : 0 ≤ h) :
    |fl (2 * f.asin (fl (√h))) - sep r1 d1 r2 d2| ≤ 3e-7 := by
  have e := (within_bound hl (env4_fits h1 h2 h3 h4) hr (m := 2 ^ 68) (ε := 2007665964833536934433910) (by decide +kernel)).2
  rw [havSum_v] at e
  obtain ⟨p0, p1⟩ := sep_range r1 d1 r2 d2
  generalize sep r1 d1 r2 d2 = σ at *
  have hπ := pi_pos
  have hπ3 := pi_gt_d2
  have hπ4 := pi_lt_d2
  have eH : (1 - Real.cos σ) / 2 = Real.sin (σ / 2) ^ 2 := by
    have := Real.cos_two_mul (σ / 2)
    rw [show 2 * (σ / 2) = σ by ring, Real.cos_sq'] at this
    rw [this]; ring
  rw [eH] at e
  have e' : |h - Real.sin (σ / 2) ^ 2| ≤ 59 / 10000000000000000 := e.trans (by norm_num)
  have z0 : 0 ≤ Real.sin (σ / 2) := sin_nonneg_of_nonneg_of_le_pi (by linarith) (by linarith)
  have z1 : Real.sin (σ / 2) ≤ 2 / 1000 := (Real.sin_le (by linarith)).trans (by linarith)
  obtain ⟨w1, w2⟩ := abs_le.mp e'
  have r0 := sqrt_nonneg h
  have rs := sq_sqrt hh
  have d1 : |√h - Real.sin (σ / 2)| ≤ 77 / 1000000000 := by
    rw [← rs] at w1 w2
    rw [abs_le]
    constructor <;> by_contra c <;> push Not at c <;> nlinarith
  obtain ⟨w3, w4⟩ := abs_le.mp d1
  have d2 : |fl (√h) - √h| ≤ 1 / 1000000000000000 := by
    refine (fl_err _).trans ?_
    rw [abs_of_nonneg r0]
    norm_num
    linarith
  obtain ⟨w5, w6⟩ := abs_le.mp d2
  have f0 : 0 ≤ fl (√h) := le_fl_zero r0
  set s := fl (√h)
  have f1 : s ≤ 3 / 1000 := by linarith
  have A0 := arcsin_nonneg.mpr f0
  have As : Real.sin (arcsin s) = s := sin_arcsin (by linarith) (by linarith)
  have A1 : arcsin s ≤ 1 / 100 := by
    have j := Real.mul_le_sin A0 (arcsin_le_pi_div_two s)
    rw [As, div_mul_eq_mul_div, div_le_iff₀ hπ] at j
    nlinarith
  have k := sin_expand (x := arcsin s) (y := σ / 2) A0 A1 (by linarith) (by linarith)
  rw [As] at k
  have k2 : |s - Real.sin (σ / 2)| ≤ 78 / 1000000000 := by
    rw [abs_le]; constructor <;> linarith
  have e3 := hf.asin s (abs_le.mpr ⟨by linarith, by linarith⟩)
  obtain ⟨u1, u2⟩ := abs_le.mp e3
  norm_num at u1 u2
  have e6 : |fl (2 * f.asin s) - 2 * f.asin s| ≤ 1 / 1000000000000000 := by
    refine (fl_err _).trans ?_
    have : |2 * f.asin s| ≤ 1 := by rw [abs_le]; constructor <;> linarith
    have : |2 * f.asin s| / 2 ^ 53 ≤ 1 / 2 ^ 53 := by gcongr
    norm_num at this ⊢
    linarith
  obtain ⟨x1, x2⟩ := abs_le.mp e6
  obtain ⟨y1, y2⟩ := abs_le.mp (show |arcsin s - σ / 2| ≤ 80 / 1000000000 by linarith)
  norm_num
  rw [abs_le]
  constructor <;> linarith

/-- **Violation.** SepHav, documented as superior to Sep, loses small separations: for two points of equal right ascension whose declinations differ by at most
10⁻⁸ radian (2 milliarcseconds), with a correctly rounded cosine, the result is exactly zero. -/
theorem C190_hav_violation {f : Inv} (hf : f.Ok) {l : Trig} (hc : ∀ x, l.cos x = fl (Real.cos x)) {r1 d1 d2 out : ℝ} (hd : |fl (d2 - d1)| ≤ 1e-8)
    (ho : Sep64.SepHav l f r1 d1 r1 d2 out) : out = 0 := by
  obtain ⟨h, hr, rfl⟩ := ho
  have z1 : ∀ y, Run l (args r1 d1 r1 d2) (q 1 1 - cos (v 3 - v 1)) y → y = 0 := by
    intro y hy
    refine one_sub_cos hc ?_ hy
    intro x hx
    cases hx with
    | sub a b => cases a; cases b; exact hd
  have z2 : ∀ y, Run l (args r1 d1 r1 d2) (q 1 1 - cos (v 2 - v 0)) y → y = 0 := by
    intro y hy
    refine one_sub_cos hc ?_ hy
    intro x hx
    cases hx with
    | sub a b =>
      cases a; cases b
      have : args r1 d1 r1 d2 2 - args r1 d1 r1 d2 0 = 0 := sub_self r1
      rw [this, fl_zero, abs_zero]; norm_num
  have w1 : ∀ y, Run l (args r1 d1 r1 d2) (hav (v 3 - v 1)) y → y = 0 := by
    intro y hy
    cases hy with
    | mul a b => rw [z1 _ b, mul_zero, fl_zero]
  have w2 : ∀ y, Run l (args r1 d1 r1 d2) (hav (v 2 - v 0)) y → y = 0 := by
    intro y hy
    cases hy with
    | mul a b => rw [z2 _ b, mul_zero, fl_zero]
  have hz : h = 0 := by
    cases hr with
    | add a b =>
      rw [w1 _ a]
      cases b with
      | mul b1 b2 => rw [w2 _ b2, mul_zero, fl_zero, add_zero, fl_zero]
    | addMul a b d => rw [w1 _ a, w2 _ d, mul_zero, add_zero, fl_zero]
    | mulAdd a b d =>
      rw [z1 _ d, mul_zero, zero_add]
      cases a with
      | mul b1 b2 => rw [w2 _ b2, mul_zero, fl_zero, fl_zero]
  rw [hz, sqrt_zero, fl_zero, hf.asin_zero, mul_zero, fl_zero]

/-- The declination 2⁻²⁷ above the equator: the true separation is 2⁻²⁷, SepHav returns zero, SepPauwels a positive number within 4·10⁻¹⁴ of the truth. -/
theorem C190_example {l : Trig} (hl : l.Ok) (hc : ∀ x, l.cos x = fl (Real.cos x)) {f : Inv} (hf : f.Ok) :
    sep 0 0 0 (1 / 2 ^ 27) = 1 / 2 ^ 27 ∧ (∀ out, Sep64.SepHav l f 0 0 0 (1 / 2 ^ 27) out → out = 0) ∧
    (∃ out, Sep64.SepHav l f 0 0 0 (1 / 2 ^ 27) out) ∧
    (∀ out, Sep64.SepPauwels l f 0 0 0 (1 / 2 ^ 27) out → 0 < out) ∧ ∃ out, Sep64.SepPauwels l f 0 0 0 (1 / 2 ^ 27) out := by
  have e : sep 0 0 0 (1 / 2 ^ 27) = 1 / 2 ^ 27 := by
    rw [Verif.Lemmas.sep_eq, Real.sin_zero, Real.cos_zero, sub_zero, Real.cos_zero, zero_mul, zero_add, one_mul, mul_one,
      arccos_cos (by positivity) (by have := pi_gt_three; norm_num at *; linarith)]
  have hv : ∃ h, Run l (args 0 0 0 (1 / 2 ^ 27)) havSum h := run_exists _ _ _
  refine ⟨e, fun out ho => C190_hav_violation hf hc ?_ ho, ?_, ?_, ?_⟩
  · rw [sub_zero]
    have : fl (1 / 2 ^ 27) = 1 / 2 ^ 27 := fl_rep (rep_of (k := -27) 1 (by norm_num) (by norm_num) (by norm_num))
    rw [this]
    norm_num
  · obtain ⟨h, hr⟩ := hv
    exact ⟨_, h, hr, rfl⟩
  · intro out ho
    have := (abs_le.mp (C190_pauwels hl hf (by norm_num) (by norm_num) (by norm_num) (by norm_num) ho)).1
    rw [e] at this
    norm_num at this ⊢
    linarith
  · obtain ⟨x, hx⟩ := run_exists l (args 0 0 0 (1 / 2 ^ 27)) px
    obtain ⟨y, hy⟩ := run_exists l (args 0 0 0 (1 / 2 ^ 27)) py
    obtain ⟨z, hz⟩ := run_exists l (args 0 0 0 (1 / 2 ^ 27)) pz
    exact ⟨_, x, y, z, hx, hy, hz, rfl⟩

end Verif.Props
