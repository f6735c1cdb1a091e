import Verif.Props.Solar
import Verif.Props.Nutation
import Mathlib.Analysis.Real.Pi.Bounds

/-! Property C118, second part: the fixed matrix for B1950 against the general one. -/

namespace Verif.Props

open Verif.Go Real Verif.Model Verif.Model.Solarxyz Verif.Spec

/-- Sine and cosine of a small angle known to 15 decimals. -/
theorem small_sin_cos (x x0 s c : ℝ) (h : |x - x0| ≤ 2e-15) (h0 : |x0| ≤ 0.0057) (hs : |x0 - x0 ^ 3 / 6 - s| ≤ 1e-12)
    (hc : |1 - x0 ^ 2 / 2 - c| ≤ 1e-12) : |sin x - s| ≤ 2e-12 ∧ |cos x - c| ≤ 6e-11 := by
  have b1 := sin_bound (x := x0) (by linarith)
  have b2 := cos_bound (x := x0) (by linarith)
  have t1 := (abs_sin_sub_sin x x0).trans h
  have t2 := (abs_cos_sub_cos x x0).trans h
  have p5 : |x0| ^ 5 ≤ 0.0057 ^ 5 := by gcongr
  have p4 : |x0| ^ 4 ≤ 0.0057 ^ 4 := by gcongr
  norm_num at p5 p4
  rw [abs_le] at *
  rw [abs_le]
  constructor <;> constructor <;> linarith

theorem near_mul {a a0 e b b0 f : ℝ} (α β : ℝ) (ha : |a - a0| ≤ e) (hb : |b - b0| ≤ f) (h1 : |a0| ≤ α) (h2 : |b| ≤ β) :
    |a * b - a0 * b0| ≤ e * β + α * f := by
  rw [show a * b - a0 * b0 = (a - a0) * b + a0 * (b - b0) by ring]
  refine (abs_add_le _ _).trans ?_
  rw [abs_mul, abs_mul]
  have := mul_le_mul ha h2 (abs_nonneg _) ((abs_nonneg _).trans ha)
  have := mul_le_mul h1 hb (abs_nonneg _) ((abs_nonneg _).trans h1)
  linarith

/-- The Julian year of the epoch B1950.0 (JDE 2433282.4235). -/
noncomputable def b1950 : ℝ := 1949.9997904423

theorem b1950_angles :
    |(angles b1950).1 - -0.005590098878148| ≤ 2e-15 ∧ |(angles b1950).2.1 - -0.005589138093612| ≤ 2e-15 ∧
    |(angles b1950).2.2 - -0.004859098857565| ≤ 2e-15 := by
  have p1 := pi_gt_d20
  have p2 := pi_lt_d20
  unfold angles b1950 hornerR
  simp only [List.foldr]
  refine ⟨?_, ?_, ?_⟩ <;> rw [abs_le] <;> constructor <;> norm_num <;> linarith

set_option maxHeartbeats 1000000 in
/-- C118.  The fixed matrix of `PositionB1950` agrees with `PositionEquinox` at the epoch B1950. -/
theorem C118_B1950 (e : ℝ → ℝ × ℝ × ℝ) (jde : ℝ) :
    |(PositionB1950 e jde).1 - (PositionEquinox e jde b1950).1| ≤ 1e-9 * |(e jde).2.2| ∧
    |(PositionB1950 e jde).2.1 - (PositionEquinox e jde b1950).2.1| ≤ 1e-9 * |(e jde).2.2| ∧
    |(PositionB1950 e jde).2.2 - (PositionEquinox e jde b1950).2.2| ≤ 1e-9 * |(e jde).2.2| := by
  obtain ⟨h1, h2, h3⟩ := b1950_angles
  obtain ⟨s1, c1⟩ := small_sin_cos _ _ (-0.005590069764) 0.999984375397 h1 (by norm_num [abs_of_neg]) (by norm_num [abs_of_neg, abs_of_pos, abs_le])
    (by norm_num [abs_of_neg, abs_of_pos, abs_le])
  obtain ⟨s2, c2⟩ := small_sin_cos _ _ (-0.005589108994) 0.999984380768 h2 (by norm_num [abs_of_neg]) (by norm_num [abs_of_neg, abs_of_pos, abs_le])
    (by norm_num [abs_of_neg, abs_of_pos, abs_le])
  obtain ⟨s3, c3⟩ := small_sin_cos _ _ (-0.004859079736) 0.999988194579 h3 (by norm_num [abs_of_neg]) (by norm_num [abs_of_neg, abs_of_pos, abs_le])
    (by norm_num [abs_of_neg, abs_of_pos, abs_le])
  have hr : ∀ v : ℝ × ℝ × ℝ, v = xyz e jde → |v.1| ≤ |(e jde).2.2| ∧ |v.2.1| ≤ |(e jde).2.2| ∧ |v.2.2| ≤ |(e jde).2.2| := by
    rintro v rfl
    have u : ∀ x y z : ℝ, |y| ≤ 1 → |z| ≤ 1 → |x * y * z| ≤ |x| := by
      intro x y z hy hz
      rw [mul_assoc, abs_mul, abs_mul]
      have := mul_le_mul hy hz (abs_nonneg _) zero_le_one
      nlinarith [abs_nonneg x]
    unfold xyz
    dsimp only
    refine ⟨u _ _ _ (abs_cos_le_one _) (abs_cos_le_one _), u _ _ _ (abs_cos_le_one _) (abs_sin_le_one _), ?_⟩
    have := u (e jde).2.2 (sin (-(e jde).2.1)) 1 (abs_sin_le_one _) (by simp)
    rwa [mul_one] at this
  obtain ⟨r1, r2, r3⟩ := hr _ rfl
  unfold PositionB1950 PositionEquinox PositionJ2000 turn
  dsimp only
  have hz : ∀ t, |sin t| ≤ 1 ∧ |cos t| ≤ 1 := fun t => ⟨abs_sin_le_one t, abs_cos_le_one t⟩
  obtain ⟨-, C1⟩ := hz (angles b1950).1
  obtain ⟨-, C2⟩ := hz (angles b1950).2.1
  obtain ⟨-, C3⟩ := hz (angles b1950).2.2
  have S2 : |sin (angles b1950).2.1| ≤ 0.006 := by rw [abs_le] at s2 ⊢; constructor <;> linarith
  have S3 : |sin (angles b1950).2.2| ≤ 0.006 := by rw [abs_le] at s3 ⊢; constructor <;> linarith
  clear hr h1 h2 h3 hz
  generalize (xyz e jde).1 = x at *
  generalize (xyz e jde).2.1 = y at *
  generalize (xyz e jde).2.2 = z at *
  generalize |(e jde).2.2| = r at *
  generalize sin (angles b1950).1 = a1 at *
  generalize cos (angles b1950).1 = b1 at *
  generalize sin (angles b1950).2.1 = a2 at *
  generalize cos (angles b1950).2.1 = b2 at *
  generalize sin (angles b1950).2.2 = a3 at *
  generalize cos (angles b1950).2.2 = b3 at *
  have m1 := near_mul 1 1 (near_mul 1 1 c1 c2 (by norm_num [abs_of_pos]) C2) c3 (by norm_num [abs_of_pos]) C3
  have m2 := near_mul 0.006 0.006 s1 s2 (by norm_num [abs_of_neg]) S2
  have m3 := near_mul 0.006 1 s1 c2 (by norm_num [abs_of_neg]) C2
  have m4 := near_mul 0.006 1 (near_mul 1 0.006 c1 s2 (by norm_num [abs_of_pos]) S2) c3 (by norm_num [abs_of_neg]) C3
  have m5 := near_mul 1 0.006 c1 s3 (by norm_num [abs_of_pos]) S3
  have m6 := near_mul 1 0.006 c1 s2 (by norm_num [abs_of_pos]) S2
  have m7 := near_mul 0.006 1 (near_mul 0.006 1 s1 c2 (by norm_num [abs_of_neg]) C2) c3 (by norm_num [abs_of_neg]) C3
  have m8 := near_mul 1 1 c1 c2 (by norm_num [abs_of_pos]) C2
  have m9 := near_mul 0.006 1 (near_mul 0.006 0.006 s1 s2 (by norm_num [abs_of_neg]) S2) c3 (by norm_num [abs_of_pos]) C3
  have m10 := near_mul 0.006 0.006 s1 s3 (by norm_num [abs_of_neg]) S3
  have m11 := near_mul 1 0.006 c2 s3 (by norm_num [abs_of_pos]) S3
  have m12 := near_mul 0.006 0.006 s2 s3 (by norm_num [abs_of_neg]) S3
  -- the entries
  have fin : ∀ p q w : ℝ, |p| ≤ 4.4e-10 → |q| ≤ 2.8e-10 → |w| ≤ 2.8e-10 → |p * x + q * y + w * z| ≤ 1e-9 * r := by
    intro p q w hp hq hw
    refine (abs_add_three _ _ _).trans ?_
    rw [abs_mul, abs_mul, abs_mul]
    have := mul_le_mul hp r1 (abs_nonneg _) (by norm_num)
    have := mul_le_mul hq r2 (abs_nonneg _) (by norm_num)
    have := mul_le_mul hw r3 (abs_nonneg _) (by norm_num)
    have : 0 ≤ r := (abs_nonneg _).trans r1
    linarith
  rw [abs_le] at m1 m2 m3 m4 m5 m6 m7 m8 m9 m10 m11 m12 c3
  refine ⟨?_, ?_, ?_⟩
  · refine le_trans (le_of_eq ?_) (fin (0.999925702634 - (b1 * b2 * b3 - a1 * a2) + (-b1 * a2 - a1 * b2 * b3) * 0.000000479966)
      (0.012189716217 - (b1 * b2 * b3 - a1 * a2) * 0.00000044036 - (-b1 * a2 - a1 * b2 * b3) * 0.917482137087 - (-b2 * a3) * 0.397776982902)
      (0.000011134016 + (b1 * b2 * b3 - a1 * a2) * 0.000000190919 + (-b1 * a2 - a1 * b2 * b3) * 0.397776982902 - (-b2 * a3) * 0.917482137087) ?_ ?_ ?_)
    · congr 1; ring
    all_goals rw [abs_le]; constructor <;> linarith
  · refine le_trans (le_of_eq ?_) (fin (-0.011179418036 - (a1 * b2 + b1 * a2 * b3) + (b1 * b2 - a1 * a2 * b3) * 0.000000479966)
      (0.917413998946 - (a1 * b2 + b1 * a2 * b3) * 0.00000044036 - (b1 * b2 - a1 * a2 * b3) * 0.917482137087 - (-a2 * a3) * 0.397776982902)
      (-0.397777041885 + (a1 * b2 + b1 * a2 * b3) * 0.000000190919 + (b1 * b2 - a1 * a2 * b3) * 0.397776982902 - (-a2 * a3) * 0.917482137087) ?_ ?_ ?_)
    · congr 1; ring
    all_goals rw [abs_le]; constructor <;> linarith
  · refine le_trans (le_of_eq ?_) (fin (-0.004859003787 - (b1 * a3) + (-a1 * a3) * 0.000000479966)
      (0.397747363646 - (b1 * a3) * 0.00000044036 - (-a1 * a3) * 0.917482137087 - b3 * 0.397776982902)
      (0.917482111428 + (b1 * a3) * 0.000000190919 + (-a1 * a3) * 0.397776982902 - b3 * 0.917482137087) ?_ ?_ ?_)
    · congr 1; ring
    all_goals rw [abs_le]; constructor <;> linarith

end Verif.Props
