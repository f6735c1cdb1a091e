import Verif.Model.Rest
import Verif.Props.Illum
/-
C161: magnitudes of the planets.  C162: the size of an asteroid.  C163: `Cmp`.
-/
namespace Verif.Props

open Real Verif.Spec Verif.Go Verif.Model Verif.Model.Illum

/-- A magnitude function follows the inverse square law in both distances: the ratio of the light at two distances, as `stellar.Ratio` takes it
from the magnitudes, is the square of the ratio of the products of the distances. -/
def InverseSquare (mag : ℝ → ℝ → ℝ) : Prop := ∀ r Δ r' Δ' : ℝ, 0 < r → 0 < Δ → 0 < r' → 0 < Δ' →
  Stellar.Ratio (mag r Δ) (mag r' Δ') = (r' * Δ' / (r * Δ)) ^ 2

theorem inverseSquare_of {mag : ℝ → ℝ → ℝ} (c : ℝ) (h : ∀ r Δ, mag r Δ = c + 5 * log10 (r * Δ)) : InverseSquare mag := by
  intro r Δ r' Δ' h1 h2 h3 h4
  unfold Stellar.Ratio
  rw [h, h]
  have e : (0.4 : ℝ) * (c + 5 * log10 (r' * Δ') - (c + 5 * log10 (r * Δ))) = log10 (r' * Δ' / (r * Δ)) * 2 := by
    unfold log10
    rw [logb_div (by positivity) (by positivity)]; ring
  dsimp only
  rw [e, rpow_mul (by norm_num)]
  unfold log10
  rw [rpow_logb (by norm_num) (by norm_num) (by positivity)]
  exact rpow_ofNat _ 2

/-- **C161.**  Every magnitude follows the inverse square law. -/
theorem C161_inverse_square (i B ΔU : ℝ) :
    InverseSquare (fun r Δ => Mercury r Δ i) ∧ InverseSquare (fun r Δ => Venus r Δ i) ∧ InverseSquare (fun r Δ => Mars r Δ i) ∧
    InverseSquare Jupiter ∧ InverseSquare (fun r Δ => Saturn r Δ B ΔU) ∧ InverseSquare Uranus ∧ InverseSquare Neptune ∧
    InverseSquare (fun r Δ => Mercury84 r Δ i) ∧ InverseSquare (fun r Δ => Venus84 r Δ i) ∧ InverseSquare (fun r Δ => Mars84 r Δ i) ∧
    InverseSquare (fun r Δ => Jupiter84 r Δ i) ∧ InverseSquare Uranus84 ∧ InverseSquare Neptune84 ∧ InverseSquare Pluto84 := by
  refine ⟨inverseSquare_of (Mercury 1 1 i) ?_, inverseSquare_of (Venus 1 1 i) ?_, inverseSquare_of (Mars 1 1 i) ?_,
    inverseSquare_of (Jupiter 1 1) ?_, inverseSquare_of (Saturn 1 1 B ΔU) ?_, inverseSquare_of (Uranus 1 1) ?_, inverseSquare_of (Neptune 1 1) ?_,
    inverseSquare_of (Mercury84 1 1 i) ?_, inverseSquare_of (Venus84 1 1 i) ?_, inverseSquare_of (Mars84 1 1 i) ?_,
    inverseSquare_of (Jupiter84 1 1 i) ?_, inverseSquare_of (Uranus84 1 1) ?_, inverseSquare_of (Neptune84 1 1) ?_, inverseSquare_of (Pluto84 1 1) ?_⟩ <;>
  · intro r Δ
    have e : log10 (1 * 1) = 0 := by unfold log10; simp
    simp only [Mercury, Venus, Mars, Jupiter, Saturn, Uranus, Neptune, Mercury84, Venus84, Mars84, Jupiter84, Uranus84, Neptune84, Pluto84, hornerR,
      List.foldr, e]
    ring

/-- The phase angle in degrees. -/
theorem toDeg_range {i : ℝ} (h0 : 0 ≤ i) : 0 ≤ toDeg i := by unfold toDeg; positivity

theorem toDeg_le {i n : ℝ} (h : i ≤ n * deg) : toDeg i ≤ n := by
  have := pi_pos
  unfold toDeg; unfold deg at h
  rw [div_le_iff₀ this]
  linarith

theorem toDeg_lt {i j : ℝ} (h : i < j) : toDeg i < toDeg j := by
  unfold toDeg; exact div_lt_div_of_pos_right (by linarith) pi_pos

/-- **C161.**  Mercury, Venus by the older formula and Mars fade as the phase angle grows. -/
theorem C161_fading (r Δ i j : ℝ) (h0 : 0 ≤ i) (hij : i < j) :
    Mercury r Δ i < Mercury r Δ j ∧ Venus r Δ i < Venus r Δ j ∧ Mars r Δ i < Mars r Δ j ∧
    Mercury84 r Δ i < Mercury84 r Δ j ∧ Mars84 r Δ i < Mars84 r Δ j ∧ Jupiter84 r Δ i < Jupiter84 r Δ j := by
  have a := toDeg_range h0
  have b := toDeg_lt hij
  simp only [Mercury, Venus, Mars, Mercury84, Mars84, Jupiter84, hornerR, List.foldr]
  generalize toDeg i = x at *
  generalize toDeg j = y at *
  have q0 : 0 ≤ (y - x) * (y - x) := mul_self_nonneg _
  have q1 : 0 ≤ x * (y - x) := mul_nonneg a (by linarith)
  refine ⟨?_, ?_, by linarith, ?_, by linarith, by linarith⟩
  · nlinarith
  · have : x * x * x < y * y * y := by
      have h1 : 0 < y * y * (y - x) := mul_pos (mul_pos (by linarith) (by linarith)) (by linarith)
      have h2 : 0 ≤ x * (y - x) * (x + y) := mul_nonneg q1 (by linarith)
      nlinarith
    nlinarith
  · have e : y * (0.038 + y * (-0.000273 + y * 0.000002)) - x * (0.038 + x * (-0.000273 + x * 0.000002)) =
        (y - x) * (0.038 - 0.000273 * (y + x) + 0.000002 * (y ^ 2 + x * y + x ^ 2)) := by ring
    have : 0 < 0.038 - 0.000273 * (y + x) + 0.000002 * (y ^ 2 + x * y + x ^ 2) := by
      nlinarith [sq_nonneg (x + y - 91), sq_nonneg (x - y)]
    have := mul_pos (sub_pos.2 b) this
    linarith

/-- Phase angles of 30° and 60°. -/
example : (0 : ℝ) ≤ 30 * deg ∧ 30 * deg < 60 * deg := by
  have := pi_pos
  unfold deg; constructor <;> linarith

/-- **C161.**  The formulas of 1984 agree with the older ones within half a magnitude, for phase angles up to 140° for Mercury, and at the phase angles
which occur for the outer planets; Venus is missing here. -/
theorem C161_agree_partial (r Δ i : ℝ) (h0 : 0 ≤ i) :
    (i ≤ 140 * deg → |Mercury84 r Δ i - Mercury r Δ i| ≤ 0.5) ∧ (i ≤ 50 * deg → |Mars84 r Δ i - Mars r Δ i| ≤ 0.22) ∧
    (i ≤ 12 * deg → |Jupiter84 r Δ i - Jupiter r Δ| ≤ 0.47) ∧ |Uranus84 r Δ - Uranus r Δ| ≤ 0.34 ∧ |Neptune84 r Δ - Neptune r Δ| ≤ 0.18 := by
  have a := toDeg_range h0
  refine ⟨fun h => ?_, fun h => ?_, fun h => ?_, ?_, ?_⟩
  · have b := toDeg_le h
    simp only [Mercury, Mercury84, hornerR, List.foldr]
    generalize toDeg i = x at *
    rw [abs_le]
    constructor <;> ring_nf
    · nlinarith [mul_nonneg a (sq_nonneg (x - 92)), sq_nonneg (x - 92)]
    · nlinarith [mul_nonneg a (sub_nonneg.2 b), mul_nonneg (mul_nonneg a (sub_nonneg.2 b)) a, mul_nonneg (sub_nonneg.2 b) (sq_nonneg (x - 36)), sq_nonneg (x - 36)]
  · have b := toDeg_le h
    simp only [Mars, Mars84]
    rw [abs_le]; constructor <;> linarith
  · have b := toDeg_le h
    simp only [Jupiter, Jupiter84]
    rw [abs_le]; constructor <;> linarith
  · simp only [Uranus, Uranus84]
    rw [abs_le]; constructor <;> linarith
  · simp only [Neptune, Neptune84]
    rw [abs_le]; constructor <;> linarith

/-- C161 is false for `Venus84`: the signs of the coefficients of the square and the cube are exchanged.  Venus brightens as it turns its dark side to
the Earth, from 30° to 90° by more than a magnitude, and at quadrature the two functions differ by more than three magnitudes. -/
theorem C161_violation (r Δ : ℝ) :
    Venus84 r Δ (90 * deg) < Venus84 r Δ (30 * deg) - 1 ∧ Venus84 r Δ (90 * deg) < Venus r Δ (90 * deg) - 3 := by
  have d1 : toDeg (90 * deg) = 90 := by unfold toDeg deg; field_simp
  have d2 : toDeg (30 * deg) = 30 := by unfold toDeg deg; field_simp
  simp only [Venus84, Venus, hornerR, List.foldr, d1, d2]
  constructor <;> norm_num <;> linarith

/-- With the signs the other way the two functions agree within 0.6 magnitude. -/
theorem C161_venus_repaired (r Δ i : ℝ) (h0 : 0 ≤ i) (h1 : i ≤ 140 * deg) :
    |hornerR (toDeg i) [-4.4 + 5 * log10 (r * Δ), 0.0009, 0.000239, -0.00000065] - Venus r Δ i| ≤ 0.6 := by
  have a := toDeg_range h0
  have b := toDeg_le h1
  simp only [Venus, hornerR, List.foldr]
  generalize toDeg i = x at *
  rw [abs_le]
  constructor <;> ring_nf
  · nlinarith [sq_nonneg (x - 35), mul_nonneg (sub_nonneg.2 b) (sq_nonneg (x - 33))]
  · nlinarith [mul_nonneg a (sub_nonneg.2 b), mul_nonneg a (sq_nonneg (x - 100)), sq_nonneg (x - 100)]

/-! C162: asteroids -/

/-- The apparent semidiameter of a sphere of diameter `d` km at `Δ` astronomical units, for small angles. -/
noncomputable def sphereSemidiameter (d Δ : ℝ) : ℝ := d / 2 / (149597870 * Δ)

/-- C162 is false: `Asteroid` returns more than 1.99 times the semidiameter of every body. -/
theorem C162_violation (d Δ : ℝ) (hd : 0 < d) (hΔ : 0 < Δ) : 1.99 * sphereSemidiameter d Δ < Semidiameter.Asteroid d Δ := by
  have p1 := pi_gt_d6
  have hp : 0 < d / Δ := by positivity
  have e : sphereSemidiameter d Δ = d / Δ * (1 / 299195740) := by
    unfold sphereSemidiameter; field_simp; norm_num
  rw [e]
  unfold Semidiameter.Asteroid Semidiameter.arcsec
  have : 1.99 * (1 / 299195740) < 0.0013788 * (π / 180 / 3600) := by norm_num at *; linarith
  have := mul_lt_mul_of_pos_left this hp
  linarith

/-- **C162**, the part which holds: the result is the apparent diameter, within one part in ten thousand. -/
theorem C162_diameter_partial (d Δ : ℝ) (hd : 0 < d) (hΔ : 0 < Δ) :
    |Semidiameter.Asteroid d Δ - 2 * sphereSemidiameter d Δ| ≤ 1e-4 * (2 * sphereSemidiameter d Δ) := by
  have p1 := pi_gt_d20
  have p2 := pi_lt_d20
  have hp : 0 < d / Δ := by positivity
  have e : 2 * sphereSemidiameter d Δ = d / Δ * (1 / 149597870) := by
    unfold sphereSemidiameter; field_simp
  rw [e]
  unfold Semidiameter.Asteroid Semidiameter.arcsec
  have u1 : 0.0013788 * (π / 180 / 3600) ≤ (1 + 1e-4) * (1 / 149597870) := by norm_num at *; linarith
  have u2 : (1 - 1e-4) * (1 / 149597870) ≤ 0.0013788 * (π / 180 / 3600) := by norm_num at *; linarith
  have v1 := mul_le_mul_of_nonneg_left u1 hp.le
  have v2 := mul_le_mul_of_nonneg_left u2 hp.le
  rw [abs_le]; constructor <;> linarith

/-- Ceres at 2 au. -/
example : (0 : ℝ) < 940 ∧ (0 : ℝ) < 2 := by norm_num

/-! C163: comparison -/

/-- C163 is false with NaN: `Cmp` calls it equal to every number, so equality by `Cmp` does not carry over: 1 = NaN = 2. -/
theorem C163_violation : Base.Cmp (EF.fin 1) EF.nan = 0 ∧ Base.Cmp EF.nan (EF.fin 2) = 0 ∧ Base.Cmp (EF.fin 1) (EF.fin 2) = -1 := by
  have n : ∀ x : EF, ¬ x < EF.nan := fun x h => by cases x <;> exact h
  unfold Base.Cmp
  refine ⟨?_, ?_, ?_⟩
  · rw [if_neg (n _), if_neg (EF.nan_lt _)]
  · rw [if_neg (EF.nan_lt _), if_neg (n _)]
  · rw [if_pos]; show (1 : ℝ) < 2; norm_num

/-- The extended reals behind the floats other than NaN. -/
noncomputable def efVal : EF → EReal
  | EF.fin x => (x : EReal)
  | EF.inf s => if s then ⊥ else ⊤
  | EF.nan => 0

theorem efVal_lt (a b : EF) (ha : a ≠ EF.nan) (hb : b ≠ EF.nan) : a < b ↔ efVal a < efVal b := by
  rcases a with x | s | _
  · rcases b with y | t | _
    · simp [efVal, EF.fin_lt]
    · cases t
      · simp [efVal]; trivial
      · simp [efVal]; exact fun h => by cases h
    · exact absurd rfl hb
  · rcases b with y | t | _
    · cases s <;> simp [efVal]
    · have e : (EF.inf s < EF.inf t) ↔ (s = true ∧ t = false) := Iff.rfl
      rw [e]
      cases s <;> cases t <;> simp [efVal]
    · exact absurd rfl hb
  · exact absurd rfl ha

/-- **C163**, the part which holds: without NaN, `Cmp` is the sign of the order of the extended real numbers. -/
theorem C163_cmp_partial (a b : EF) (ha : a ≠ EF.nan) (hb : b ≠ EF.nan) :
    (Base.Cmp a b = -1 ↔ efVal a < efVal b) ∧ (Base.Cmp a b = 0 ↔ efVal a = efVal b) ∧ (Base.Cmp a b = 1 ↔ efVal b < efVal a) := by
  unfold Base.Cmp
  rw [show (a < b) = (efVal a < efVal b) from propext (efVal_lt a b ha hb), show (b < a) = (efVal b < efVal a) from propext (efVal_lt b a hb ha)]
  rcases lt_trichotomy (efVal a) (efVal b) with h | h | h
  · simp [h, h.ne, h.le]
  · simp [h]
  · simp [h, h.ne', not_lt.2 h.le]

/-- Infinity and a number. -/
example : EF.fin 3 ≠ EF.nan ∧ EF.inf true ≠ EF.nan := ⟨by simp, by simp⟩

end Verif.Props
