import Verif.Model.Parallax
import Verif.Lemmas.Rotation
import Verif.Lemmas.Tangent
import Mathlib.Analysis.Real.Pi.Bounds
/-
C69, C99: topocentric places.
-/
namespace Verif.Props

open Real Verif.Go Verif.Model Verif.Spec Verif.Lemmas

/-- The place of the observer in units of the Earth's equatorial radius, at local sidereal time θ, with the parallax constants
ρ sin φ′ and ρ cos φ′. -/
noncomputable def observer (θ ρs ρc : ℝ) : V3 := !₂[ρc * cos θ, ρc * sin θ, ρs]

/-- The body seen by the observer: its geocentric direction less the place of the observer, the distance of the body being the
unit and sπ the Earth's radius in this unit. -/
noncomputable def seen (α δ sπ θ ρs ρc : ℝ) : V3 := dir α δ - sπ • observer θ ρs ρc

theorem norm_vec (x y z : ℝ) : ‖(!₂[x, y, z] : V3)‖ = √(x ^ 2 + y ^ 2 + z ^ 2) := by
  rw [EuclideanSpace.norm_eq]
  congr 1
  simp [Fin.sum_univ_three]

/-- `seen` in the frame turned to the right ascension of the body. -/
theorem seen_rot (α δ sπ H ρs ρc : ℝ) :
    seen α δ sπ (α + H) ρs ρc = rotZ α !₂[cos δ - ρc * sπ * cos H, -ρc * sπ * sin H, sin δ - ρs * sπ] := by
  unfold seen dir observer
  rw [rotZ_vec, cos_add, sin_add]
  ext i
  fin_cases i <;> simp <;> ring

theorem norm_rotZ (a : ℝ) (v : V3) : ‖rotZ a v‖ = ‖v‖ := by
  rw [norm_eq_sqrt_real_inner, norm_eq_sqrt_real_inner, inner_rotZ]

/-- Observers' hour angle. -/
theorem seen_mod (α δ sπ θ ρs ρc : ℝ) : seen α δ sπ (α + mod1 (θ - α)) ρs ρc = seen α δ sπ θ ρs ρc := by
  have e : ∀ f : ℝ → ℝ, (f = cos ∨ f = sin) → f (α + mod1 (θ - α)) = f θ := by
    intro f hf
    obtain ⟨-, -, k, hk⟩ := mod1_eq (θ - α)
    rw [show α + mod1 (θ - α) = θ - k * (2 * π) by linarith]
    rcases hf with rfl | rfl
    · exact cos_sub_int_mul_two_pi _ _
    · exact sin_sub_int_mul_two_pi _ _
  unfold seen observer
  rw [e cos (Or.inl rfl), e sin (Or.inr rfl)]

/-- C69: `Topocentric` returns the direction in which the observer sees the body, unless the body is so close to a pole of the
equator that the parallax carries it across (then the divisor cos δ - ρ cos φ′ sin π cos H is not positive). -/
theorem C69_topocentric (α δ Δ ρs ρc L θ0 : ℝ)
    (hX : 0 < cos δ - ρc * sin (Parallax.Horizontal Δ) * cos (θ0 - L - α)) :
    let v := seen α δ (sin (Parallax.Horizontal Δ)) (θ0 - L) ρs ρc
    ‖v‖ • dir (Parallax.Topocentric α δ Δ ρs ρc L θ0).1 (Parallax.Topocentric α δ Δ ρs ρc L θ0).2 = v ∧
    0 ≤ (Parallax.Topocentric α δ Δ ρs ρc L θ0).1 ∧ (Parallax.Topocentric α δ Δ ρs ρc L θ0).1 < 2 * π ∧
    |(Parallax.Topocentric α δ Δ ρs ρc L θ0).2| < π / 2 := by
  intro v
  have hv : v = seen α δ (sin (Parallax.Horizontal Δ)) (α + mod1 (θ0 - L - α)) ρs ρc := (seen_mod _ _ _ _ _ _).symm
  rw [← cos_mod1 (θ0 - L - α)] at hX
  unfold Parallax.Topocentric
  dsimp only
  rw [seen_rot] at hv
  set H := mod1 (θ0 - L - α)
  set sπ := sin (Parallax.Horizontal Δ)
  obtain ⟨p1, p2⟩ := atan2_polar (-ρc * sπ * sin H) (cos δ - ρc * sπ * cos H)
  set φ := atan2 (-ρc * sπ * sin H) (cos δ - ρc * sπ * cos H)
  obtain ⟨q1, q2⟩ := atan2_polar ((sin δ - ρs * sπ) * cos φ) (cos δ - ρc * sπ * cos H)
  have hpos : 0 < cos (atan2 ((sin δ - ρs * sπ) * cos φ) (cos δ - ρc * sπ * cos H)) := by
    by_contra hc
    push Not at hc
    nlinarith [sqrt_nonneg ((cos δ - ρc * sπ * cos H) ^ 2 + ((sin δ - ρs * sπ) * cos φ) ^ 2),
      mul_nonneg (sqrt_nonneg ((cos δ - ρc * sπ * cos H) ^ 2 + ((sin δ - ρs * sπ) * cos φ) ^ 2)) (neg_nonneg.2 hc)]
  have hdr := atan2_range ((sin δ - ρs * sπ) * cos φ) (cos δ - ρc * sπ * cos H)
  set d := atan2 ((sin δ - ρs * sπ) * cos φ) (cos δ - ρc * sπ * cos H)
  set X := cos δ - ρc * sπ * cos H
  set Y := -ρc * sπ * sin H
  set Z := sin δ - ρs * sπ
  have hr : 0 < √(X ^ 2 + Y ^ 2) := sqrt_pos.2 (by positivity)
  have hc : 0 < cos φ := by
    by_contra hc
    push Not at hc
    nlinarith
  have hrsq := sq_sqrt (by positivity : 0 ≤ X ^ 2 + Y ^ 2)
  set r := √(X ^ 2 + Y ^ 2)
  have hn : ‖v‖ = √(X ^ 2 + Y ^ 2 + Z ^ 2) := by rw [hv, norm_rotZ, norm_vec]
  have hq : √(X ^ 2 + (Z * cos φ) ^ 2) = cos φ * ‖v‖ := by
    rw [hn, ← sqrt_sq hc.le, ← sqrt_mul (sq_nonneg _), sqrt_sq hc.le]
    congr 1
    linear_combination -(r * cos φ + X) * p1 + cos φ ^ 2 * hrsq
  rw [hq] at q1 q2
  have s1 : ‖v‖ * cos d = r := by
    have : cos φ * (‖v‖ * cos d) = cos φ * r := by linarith
    exact mul_left_cancel₀ hc.ne' this
  have s2 : ‖v‖ * sin d = Z := by
    have : cos φ * (‖v‖ * sin d) = cos φ * Z := by linarith
    exact mul_left_cancel₀ hc.ne' this
  refine ⟨?_, (mod1_eq _).1, (mod1_eq _).2.1, ?_⟩
  · rw [dir_mod1, add_comm, ← rotZ_dir]
    conv_rhs => rw [hv]
    unfold dir
    rw [rotZ_vec, rotZ_vec]
    have e1 : ‖v‖ * (cos d * cos φ) = X := by rw [← mul_assoc, s1, p1]
    have e2 : ‖v‖ * (cos d * sin φ) = Y := by rw [← mul_assoc, s1, p2]
    ext i
    fin_cases i <;> simp
    · linear_combination cos α * e1 - sin α * e2
    · linear_combination sin α * e1 + cos α * e2
    · exact s2
  · rw [abs_lt]
    have h1 := hdr.1
    have h2 := hdr.2
    constructor
    · by_contra hcon
      push Not at hcon
      have := cos_nonpos_of_pi_div_two_le_of_le (x := -d) (by linarith) (by linarith [pi_pos])
      rw [cos_neg] at this
      linarith
    · by_contra hcon
      push Not at hcon
      have := cos_nonpos_of_pi_div_two_le_of_le (x := d) (by linarith) (by linarith [pi_pos])
      linarith

/-- A case of the hypothesis of `C69_topocentric`: parallax constants of an observer on the ground, a body at declination 45°. -/
example : 0 < cos (π / 4) - 0.8 * sin (Parallax.Horizontal 0.0025) * cos (1 - 0 - 0) := by
  have h1 : Parallax.Horizontal 0.0025 ≤ 0.02 := by
    unfold Parallax.Horizontal Semidiameter.Horizontal Semidiameter.arcsec
    rw [div_le_iff₀ (by norm_num)]
    nlinarith [pi_lt_d2]
  have h0 : 0 ≤ Parallax.Horizontal 0.0025 := by
    unfold Parallax.Horizontal Semidiameter.Horizontal Semidiameter.arcsec
    positivity
  have h2 : |sin (Parallax.Horizontal 0.0025)| ≤ 0.02 := by
    refine (abs_sin_le_abs).trans ?_
    rw [abs_of_nonneg h0]
    exact h1
  have h3 : |sin (Parallax.Horizontal 0.0025) * cos (1 - 0 - 0)| ≤ 0.02 := by
    rw [abs_mul]
    have := mul_le_mul h2 (abs_cos_le_one (1 - 0 - 0)) (abs_nonneg _) (by norm_num)
    linarith
  rw [cos_pi_div_four]
  have h4 : (1 : ℝ) ≤ √2 := by
    rw [one_le_sqrt]
    norm_num
  nlinarith [(abs_le.1 h3).2]

/-- C69: `Topocentric3` returns the local hour angle and the declination of the same direction. -/
theorem C69_topocentric3 (α δ Δ ρs ρc L θ0 : ℝ)
    (hv0 : seen α δ (sin (Parallax.Horizontal Δ)) (θ0 - L) ρs ρc ≠ 0) :
    let v := seen α δ (sin (Parallax.Horizontal Δ)) (θ0 - L) ρs ρc
    ‖v‖ • dir (θ0 - L - (Parallax.Topocentric3 α δ Δ ρs ρc L θ0).1) (Parallax.Topocentric3 α δ Δ ρs ρc L θ0).2 = v := by
  intro v
  have hvd : v = seen α δ (sin (Parallax.Horizontal Δ)) (θ0 - L) ρs ρc := rfl
  clear_value v
  rw [← hvd] at hv0
  unfold Parallax.Topocentric3
  dsimp only
  rw [cos_mod1, sin_mod1]
  set θ := θ0 - L
  clear_value θ
  set sπ := sin (Parallax.Horizontal Δ)
  clear_value sπ
  set A := cos δ * sin (θ - α) with hA
  set B := cos δ * cos (θ - α) - ρc * sπ with hB
  set C := sin δ - ρs * sπ with hC
  have hv : v = rotZ θ !₂[B, -A, C] := by
    rw [hvd]
    unfold seen dir observer
    rw [rotZ_vec, hA, hB, hC, cos_sub, sin_sub]
    have e1 := sin_sq_add_cos_sq θ
    ext i
    fin_cases i <;> simp
    · clear * - e1; grind
    · clear * - e1; grind
    · ring
  have hn : ‖v‖ = √(A * A + B * B + C * C) := by
    rw [hv, norm_rotZ, norm_vec]
    congr 1
    ring
  have hq : 0 < √(A * A + B * B + C * C) := by rw [← hn]; exact norm_pos_iff.2 hv0
  have hsq := sq_sqrt (by nlinarith [mul_self_nonneg A, mul_self_nonneg B, mul_self_nonneg C] : 0 ≤ A * A + B * B + C * C)
  rw [hn]
  set q := √(A * A + B * B + C * C)
  have h := dir_scaled (x := B / q) (y := A / q) (z := C / q) (c := 1 / q) (by positivity) (by
    field_simp
    linarith)
  have ea : A / q / (1 / q) = A := by field_simp
  have eb : B / q / (1 / q) = B := by field_simp
  rw [ea, eb] at h
  obtain ⟨e1, e2, e3⟩ := vec_inj h
  set H' := atan2 A B
  set d := arcsin (C / q)
  have f1 : q * (cos d * cos H') = B := by rw [e1]; field_simp
  have f2 : q * (cos d * sin H') = A := by rw [e2]; field_simp
  have f3 : q * sin d = C := by rw [e3]; field_simp
  rw [hv, rotZ_vec]
  unfold dir
  rw [cos_sub, sin_sub]
  ext i
  fin_cases i <;> simp
  · linear_combination cos θ * f1 + sin θ * f2
  · linear_combination sin θ * f1 - cos θ * f2
  · exact f3

/-- C69: the two functions agree: the same declination, and the hour angle of the one belongs to the right ascension of the other. -/
theorem C69_agree (α δ Δ ρs ρc L θ0 : ℝ)
    (hX : 0 < cos δ - ρc * sin (Parallax.Horizontal Δ) * cos (θ0 - L - α)) :
    (Parallax.Topocentric3 α δ Δ ρs ρc L θ0).2 = (Parallax.Topocentric α δ Δ ρs ρc L θ0).2 ∧
    mod1 (θ0 - L - (Parallax.Topocentric3 α δ Δ ρs ρc L θ0).1) = (Parallax.Topocentric α δ Δ ρs ρc L θ0).1 := by
  obtain ⟨h1, h2, h3, h4⟩ := C69_topocentric α δ Δ ρs ρc L θ0 hX
  have hv0 : seen α δ (sin (Parallax.Horizontal Δ)) (θ0 - L) ρs ρc ≠ 0 := by
    intro h
    rw [← seen_mod, seen_rot] at h
    have hn := norm_rotZ α !₂[cos δ - ρc * sin (Parallax.Horizontal Δ) * cos (mod1 (θ0 - L - α)),
      -ρc * sin (Parallax.Horizontal Δ) * sin (mod1 (θ0 - L - α)), sin δ - ρs * sin (Parallax.Horizontal Δ)]
    rw [h, norm_zero, norm_vec, cos_mod1] at hn
    have := sqrt_pos.2 (by positivity : 0 < (cos δ - ρc * sin (Parallax.Horizontal Δ) * cos (θ0 - L - α)) ^ 2 +
      (-ρc * sin (Parallax.Horizontal Δ) * sin (mod1 (θ0 - L - α))) ^ 2 + (sin δ - ρs * sin (Parallax.Horizontal Δ)) ^ 2)
    linarith
  have h5 := C69_topocentric3 α δ Δ ρs ρc L θ0 hv0
  have hn := norm_pos_iff.2 hv0
  have h6 : dir (Parallax.Topocentric α δ Δ ρs ρc L θ0).1 (Parallax.Topocentric α δ Δ ρs ρc L θ0).2 =
      dir (θ0 - L - (Parallax.Topocentric3 α δ Δ ρs ρc L θ0).1) (Parallax.Topocentric3 α δ Δ ρs ρc L θ0).2 := by
    have := h1.trans h5.symm
    exact smul_right_injective V3 hn.ne' this
  obtain ⟨e1, e2⟩ := dir_inj h4 (abs_arcsin_le _) h6
  refine ⟨e1.symm, ?_⟩
  rw [← mod1_of_mem h2 h3]
  exact e2.symm

/-- C69: for an observer at the centre of the Earth nothing changes. -/
theorem C69_no_parallax (α δ Δ L θ0 : ℝ) (hα0 : 0 ≤ α) (hα1 : α < 2 * π) (hδ : |δ| < π / 2) :
    Parallax.Topocentric α δ Δ 0 0 L θ0 = (α, δ) := by
  have hc : 0 < cos δ := cos_pos_of_mem_Ioo (abs_lt.1 hδ)
  obtain ⟨h1, h2, h3, h4⟩ := C69_topocentric α δ Δ 0 0 L θ0 (by simpa using hc)
  have hs : seen α δ (sin (Parallax.Horizontal Δ)) (θ0 - L) 0 0 = dir α δ := by
    unfold seen observer
    ext i
    fin_cases i <;> simp
  rw [hs, norm_dir, one_smul] at h1
  obtain ⟨e1, e2⟩ := dir_inj h4 hδ.le h1
  rw [mod1_of_mem h2 h3, mod1_of_mem hα0 hα1] at e2
  exact Prod.ext e2 e1

/-- C69: the corrections of the non-rigorous `Topocentric2` are the displacement of the body to the first order in the parallax: the
part, perpendicular to the line of sight, of the observer's place times the parallax. -/
theorem C69_topocentric2 (α δ Δ ρs ρc L θ0 : ℝ) (hδ : cos δ ≠ 0) :
    shift α δ (Parallax.Topocentric2 α δ Δ ρs ρc L θ0).1 (Parallax.Topocentric2 α δ Δ ρs ρc L θ0).2 =
      -(Parallax.Horizontal Δ) • perp (dir α δ) (observer (θ0 - L) ρs ρc) := by
  unfold Parallax.Topocentric2
  dsimp only
  rw [cos_mod1, sin_mod1]
  generalize Parallax.Horizontal Δ = p
  rw [shift_vec]
  unfold dir observer
  rw [perp_vec]
  generalize θ0 - L = θ
  rw [cos_sub, sin_sub]
  have e0 : cos δ * -(p * (ρc * (sin θ * cos α - cos θ * sin α) / cos δ)) = -(p * (ρc * (sin θ * cos α - cos θ * sin α))) := by
    field_simp
  rw [e0]
  have e1 := sin_sq_add_cos_sq α
  have e2 := sin_sq_add_cos_sq δ
  have e3 := sin_sq_add_cos_sq θ
  clear * - e1 e2 e3
  ext i
  fin_cases i <;> simp
  · grind
  · grind
  · grind

/-- C99: `TopocentricEcliptical` returns the direction in which the observer sees the body, in the ecliptic frame, with longitude in
[0, 2π), and the semidiameter enlarged in inverse proportion to the distance. -/
theorem C99_ecliptical (l β s S C ε θ par : ℝ) (hN : cos l * cos β - C * sin par * cos θ ≠ 0) :
    let v := dir l β - sin par • rotX (-ε) (observer θ S C)
    let t := Parallax.TopocentricEcliptical l β s S C ε θ par
    ‖v‖ • dir t.1 t.2.1 = v ∧ 0 ≤ t.1 ∧ t.1 < 2 * π ∧ |t.2.1| < π / 2 ∧ t.2.2 = arcsin (sin s / ‖v‖) := by
  intro v t
  have hpi := pi_pos
  set N := cos l * cos β - C * sin par * cos θ with hNd
  set Y := sin l * cos β - sin par * (S * sin ε + C * cos ε * sin θ) with hYd
  set Z := sin β - sin par * (S * cos ε - C * sin ε * sin θ) with hZd
  have hv : v = !₂[N, Y, Z] := by
    show dir l β - sin par • rotX (-ε) (observer θ S C) = _
    unfold dir observer
    rw [rotX_vec, cos_neg, sin_neg, hNd, hYd, hZd]
    ext i
    fin_cases i <;> simp
    · ring
    · ring
    · left; ring
  obtain ⟨p1, p2⟩ := atan2_polar Y N
  have hr : 0 < √(N ^ 2 + Y ^ 2) := sqrt_pos.2 (by positivity)
  have hrsq := sq_sqrt (by positivity : 0 ≤ N ^ 2 + Y ^ 2)
  have hrange := atan2_range Y N
  have ht1 : t.1 = if atan2 Y N < 0 then atan2 Y N + 2 * π else atan2 Y N := rfl
  have hs1 : sin t.1 = sin (atan2 Y N) := by
    rw [ht1]; split_ifs
    · exact sin_add_two_pi _
    · rfl
  have hc1 : cos t.1 = cos (atan2 Y N) := by
    rw [ht1]; split_ifs
    · exact cos_add_two_pi _
    · rfl
  have ht2 : t.2.1 = arctan (cos t.1 * Z / N) := rfl
  have ht3 : t.2.2 = arcsin (cos t.1 * cos t.2.1 * sin s / N) := rfl
  have h0 : 0 ≤ t.1 ∧ t.1 < 2 * π := by
    rw [ht1]
    split_ifs with h
    · constructor <;> linarith
    · push Not at h
      constructor <;> linarith
  clear_value t
  rw [← hs1] at p2
  rw [← hc1] at p1
  set r := √(N ^ 2 + Y ^ 2)
  have hcN : cos t.1 / N = 1 / r := by
    rw [← p1] at hN ⊢
    have hc0 : cos t.1 ≠ 0 := fun h => hN (by rw [h, mul_zero])
    field_simp
  have hn : ‖v‖ = √(r ^ 2 + Z ^ 2) := by rw [hv, norm_vec, hrsq]
  have hq : 0 < √(r ^ 2 + Z ^ 2) := sqrt_pos.2 (by positivity)
  have hβ : t.2.1 = arctan (Z / r) := by
    rw [ht2, show cos t.1 * Z / N = cos t.1 / N * Z by ring, hcN]
    congr 1
    ring
  have h1 : 1 + (Z / r) ^ 2 = (r ^ 2 + Z ^ 2) / r ^ 2 := by field_simp
  have hcb : cos t.2.1 = r / ‖v‖ := by
    rw [hβ, cos_arctan, h1, sqrt_div' _ (sq_nonneg r), sqrt_sq hr.le, hn, one_div_div]
  have hsb : sin t.2.1 = Z / ‖v‖ := by
    rw [hβ, sin_arctan, h1, sqrt_div' _ (sq_nonneg r), sqrt_sq hr.le, hn]
    field_simp
  have hvn : ‖v‖ ≠ 0 := by rw [hn]; exact hq.ne'
  refine ⟨?_, h0.1, h0.2, ?_, ?_⟩
  · conv_rhs => rw [hv]
    unfold dir
    rw [hcb, hsb]
    ext i
    fin_cases i <;> simp
    · rw [← p1]; field_simp
    · rw [← p2]; field_simp
    · field_simp
  · rw [hβ, abs_lt]
    exact ⟨neg_pi_div_two_lt_arctan _, arctan_lt_pi_div_two _⟩
  · rw [ht3]
    congr 1
    rw [show cos t.1 * cos t.2.1 * sin s / N = cos t.1 / N * cos t.2.1 * sin s by ring, hcN, hcb]
    field_simp

end Verif.Props
