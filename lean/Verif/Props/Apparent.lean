import Verif.Lemmas.Tangent
import Verif.Model.Apparent
import Mathlib.Analysis.Real.Pi.Bounds

/-! Properties C86 and C88: aberration and nutation of star places. -/

namespace Verif.Props

open Real Verif.Spec Verif.Model.Apparent Verif.Lemmas

/-- The velocity of the Earth in units of the speed of light, in the ecliptic frame, for a Kepler orbit seen from longitude s of the Sun
with eccentricity e and longitude of perihelion p. -/
noncomputable def earthVelocity (s e p : ℝ) : V3 :=
  kappa • !₂[sin s - e * sin p, -(cos s - e * cos p), 0]

theorem earthVelocity_vec (s e p : ℝ) :
    earthVelocity s e p = !₂[kappa * (sin s - e * sin p), kappa * (-(cos s - e * cos p)), 0] := by
  unfold earthVelocity; ext i; fin_cases i <;> simp

/-- C86.  EclipticAberration displaces a star by the part of the Earth's velocity perpendicular to the line of sight. -/
theorem C86_ecliptic (s e p l β : ℝ) (hβ : cos β ≠ 0) :
    let Δ := EclipticAberration s e p l β
    shift l β Δ.1 Δ.2 = perp (dir l β) (earthVelocity s e p) := by
  intro Δ
  rw [earthVelocity_vec, shift_vec, dir, perp_vec]
  have f1 := sin_sq_add_cos_sq l
  have f2 := sin_sq_add_cos_sq β
  have h1 : cos β * Δ.1 = kappa * (e * (cos p * cos l + sin p * sin l) - (cos s * cos l + sin s * sin l)) := by
    simp only [Δ, EclipticAberration]
    rw [cos_sub, cos_sub]; field_simp
  have h2 : Δ.2 = -(kappa * (sin β * ((sin s * cos l - cos s * sin l) - e * (sin p * cos l - cos p * sin l)))) := by
    simp only [Δ, EclipticAberration]
    rw [sin_sub, sin_sub]
  rw [h1, h2]
  clear h1 h2
  apply vec_eq <;> grind

/-- C86.  Aberration displaces a star by the part of the same velocity, seen in the equatorial frame, perpendicular to the line
of sight. -/
theorem C86_equatorial (ε s e p α δ : ℝ) (hδ : cos δ ≠ 0) (hε : cos ε ≠ 0) :
    let Δ := Aberration ε s e p α δ
    shift α δ Δ.1 Δ.2 = perp (dir α δ) (rotX ε (earthVelocity s e p)) := by
  intro Δ
  rw [earthVelocity_vec, rotX_vec, shift_vec, dir, perp_vec]
  have f1 := sin_sq_add_cos_sq α
  have f2 := sin_sq_add_cos_sq δ
  have h1 : cos δ * Δ.1 = kappa * (e * (cos α * cos ε * cos p + sin α * sin p) - (cos α * cos ε * cos s + sin α * sin s)) := by
    simp only [Δ, Aberration]; field_simp
  have h2 : Δ.2 = kappa * (e * (cos p * (sin ε * cos δ - cos ε * sin α * sin δ) + sin p * (cos α * sin δ)) -
      (cos s * (sin ε * cos δ - cos ε * sin α * sin δ) + sin s * (cos α * sin δ))) := by
    simp only [Δ, Aberration]
    have : cos ε * (tan ε * cos δ - sin α * sin δ) = sin ε * cos δ - cos ε * sin α * sin δ := by
      rw [tan_eq_sin_div_cos]; field_simp
    rw [this]
  rw [h1, h2]
  clear h1 h2
  apply vec_eq <;> grind

/-- C86.  The two functions agree: for the same star the displacements are the same vector in the two frames. -/
theorem C86_agree (ε s e p l β α δ : ℝ) (hβ : cos β ≠ 0) (hδ : cos δ ≠ 0) (hε : cos ε ≠ 0) (h : dir α δ = rotX ε (dir l β)) :
    shift α δ (Aberration ε s e p α δ).1 (Aberration ε s e p α δ).2 =
      rotX ε (shift l β (EclipticAberration s e p l β).1 (EclipticAberration s e p l β).2) := by
  rw [C86_ecliptic s e p l β hβ, C86_equatorial ε s e p α δ hδ hε, h, perp, perp, inner_rotX]
  generalize dir l β = n
  generalize earthVelocity s e p = v
  generalize inner ℝ v n = c
  unfold rotX
  ext i; fin_cases i <;> simp <;> ring

/-- C86.  AberrationRonVondrak displaces by the perpendicular part of the velocity (X, Y, Z)/c. -/
theorem C86_ronVondrak (X Y Z α δ : ℝ) (hδ : cos δ ≠ 0) :
    let Δ := AberrationRonVondrak X Y Z α δ
    shift α δ Δ.1 Δ.2 = perp (dir α δ) !₂[X / lightC, Y / lightC, Z / lightC] := by
  intro Δ
  rw [shift_vec, dir, perp_vec]
  have f1 := sin_sq_add_cos_sq α
  have f2 := sin_sq_add_cos_sq δ
  have hc : lightC ≠ 0 := by unfold lightC; norm_num
  have h1 : cos δ * Δ.1 = Y / lightC * cos α - X / lightC * sin α := by
    simp only [Δ, AberrationRonVondrak]; field_simp
  have h2 : Δ.2 = -((X / lightC * cos α + Y / lightC * sin α) * sin δ - Z / lightC * cos δ) := by
    simp only [Δ, AberrationRonVondrak]; field_simp
  rw [h1, h2]
  clear h1 h2
  generalize X / lightC = x; generalize Y / lightC = y; generalize Z / lightC = z
  apply vec_eq <;> grind

/-- C86.  The displacement never exceeds κ (1 + |e|). -/
theorem C86_bound (s e p l β : ℝ) (hβ : cos β ≠ 0) :
    let Δ := EclipticAberration s e p l β
    (cos β * Δ.1) ^ 2 + Δ.2 ^ 2 ≤ (kappa * (1 + |e|)) ^ 2 := by
  intro Δ
  have hk : (0 : ℝ) < kappa := by unfold kappa; positivity
  have h1 : cos β * Δ.1 = kappa * (e * cos (p - l) - cos (s - l)) := by
    simp only [Δ, EclipticAberration]; field_simp
  have h2 : Δ.2 = -(kappa * (sin β * (sin (s - l) - e * sin (p - l)))) := rfl
  rw [h1, h2]
  have a1 := sin_sq_add_cos_sq (p - l)
  have a2 := sin_sq_add_cos_sq (s - l)
  have a3 := sin_sq_add_cos_sq β
  set P := sin (p - l); set Q := cos (p - l); set R := sin (s - l); set S := cos (s - l)
  have b1 : (sin β) ^ 2 ≤ 1 := by nlinarith [sq_nonneg (cos β)]
  have b2 : (sin β * (R - e * P)) ^ 2 ≤ (R - e * P) ^ 2 := by
    rw [mul_pow]; nlinarith [sq_nonneg (R - e * P)]
  have b3 : (e * Q - S) ^ 2 + (R - e * P) ^ 2 = e ^ 2 + 1 - 2 * e * (Q * S + P * R) := by grind
  have b4 : |Q * S + P * R| ≤ 1 := by
    rw [abs_le]; constructor <;> nlinarith [sq_nonneg (Q + S), sq_nonneg (P + R), sq_nonneg (Q - S), sq_nonneg (P - R)]
  have b5 : -(e * (Q * S + P * R)) ≤ |e| := by
    calc -(e * (Q * S + P * R)) ≤ |e * (Q * S + P * R)| := neg_le_abs _
      _ = |e| * |Q * S + P * R| := abs_mul _ _
      _ ≤ |e| * 1 := by gcongr
      _ = |e| := mul_one _
  have b6 : |e| ^ 2 = e ^ 2 := sq_abs e
  have : (e * Q - S) ^ 2 + (sin β * (R - e * P)) ^ 2 ≤ (1 + |e|) ^ 2 := by nlinarith
  have hk2 : 0 ≤ kappa ^ 2 := sq_nonneg _
  nlinarith [mul_le_mul_of_nonneg_left this hk2]

/-- C88.  Nutation displaces a star by the small rotation Δψ about the pole of the ecliptic plus Δε about the equinox. -/
theorem C88_nutation (ε dψ dε α δ : ℝ) (hδ : cos δ ≠ 0) :
    let Δ := Nutation ε dψ dε α δ
    shift α δ Δ.1 Δ.2 = cross (dψ • rotX ε !₂[0, 0, 1] + dε • !₂[1, 0, 0]) (dir α δ) := by
  intro Δ
  have hv : (dψ • rotX ε !₂[0, 0, 1] + dε • !₂[1, 0, 0] : V3) = !₂[dε, -(dψ * sin ε), dψ * cos ε] := by
    rw [rotX_vec]; ext i; fin_cases i <;> simp
  rw [hv, dir, cross_vec, shift_vec]
  have f1 := sin_sq_add_cos_sq α
  have f2 := sin_sq_add_cos_sq δ
  have h1 : cos δ * Δ.1 = (cos ε * cos δ + sin ε * sin α * sin δ) * dψ - cos α * sin δ * dε := by
    simp only [Δ, Nutation, tan_eq_sin_div_cos]; field_simp
  have h2 : Δ.2 = dψ * (sin ε * cos α) + dε * sin α := rfl
  rw [h1, h2]
  clear h1 h2
  apply vec_eq <;> grind

/-- C86, C88.  Near the pole of the ecliptic the ecliptic aberration is a genuine displacement of size κ (e = 0). -/
theorem C86_example : (EclipticAberration 0 0 0 0 (π / 3)).1 = -(2 * kappa) := by
  simp [EclipticAberration]; ring

end Verif.Props
