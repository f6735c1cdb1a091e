import Verif.Model.Kepler64
import Mathlib.Analysis.SpecialFunctions.Trigonometric.Deriv
import Mathlib.Analysis.Calculus.MeanValue
import Mathlib.Analysis.Real.Pi.Bounds
import Mathlib.Tactic
/-
C186: the solvers of Kepler's equation in double precision.
-/
namespace Verif.Props.Kepler64

open Real Verif.Go.F64 Verif.Model.Kepler64

theorem fl_sgn {x : ℝ} (h : fl x < 0) : x < 0 := by
  by_contra hc
  have := le_fl (z := 0) (by simpa using rep_int (n := 0) (by norm_num)) (not_lt.mp hc)
  linarith

theorem fl_err' (x : ℝ) : |fl x - x| ≤ |x| * 1.2e-16 + 1e-30 := by
  have h := fl_err x
  have e : (1 : ℝ) / 2 ^ 128 ≤ 1e-30 := by norm_num
  have e2 : |x| / 2 ^ 53 ≤ |x| * 1.2e-16 := by
    rw [div_eq_mul_inv]
    exact mul_le_mul_of_nonneg_left (by norm_num) (abs_nonneg x)
  linarith

theorem mulAdd_close {a b c x : ℝ} (h : MulAdd a b c x) (hb : |b * c| ≤ 1.001) : |x - (a + b * c)| ≤ (|a| + 3) * 1.2e-16 := by
  rcases h with h | h
  · have h1 := fl_err' (b * c)
    have h2 := fl_err' (a + fl (b * c))
    rw [← h] at h2
    rw [abs_le] at h1
    have h3 : |a + fl (b * c)| ≤ |a| + 1.002 := by
      refine (abs_add_le _ _).trans ?_
      have := abs_le.mp hb
      have : |fl (b * c)| ≤ 1.002 := abs_le.mpr ⟨by linarith [h1.1], by linarith [h1.2]⟩
      linarith
    rw [abs_le] at h2 ⊢
    constructor <;> linarith [h2.1, h2.2, h1.1, h1.2]
  · have h2 := fl_err' (a + b * c)
    rw [← h] at h2
    have h3 := (abs_add_le a (b * c))
    linarith

theorem mulSub_close {a b c x : ℝ} (h : MulSub a b c x) (hb : |b * c| ≤ 1.001) : |x - (a - b * c)| ≤ (|a| + 3) * 1.2e-16 := by
  rcases h with h | h
  · have h1 := fl_err' (b * c)
    have h2 := fl_err' (a - fl (b * c))
    rw [← h] at h2
    rw [abs_le] at h1
    have h3 : |a - fl (b * c)| ≤ |a| + 1.002 := by
      refine (abs_sub _ _).trans ?_
      have := abs_le.mp hb
      have : |fl (b * c)| ≤ 1.002 := abs_le.mpr ⟨by linarith [h1.1], by linarith [h1.2]⟩
      linarith
    rw [abs_le] at h2 ⊢
    constructor <;> linarith [h2.1, h2.2, h1.1, h1.2]
  · have h2 := fl_err' (a - b * c)
    rw [← h] at h2
    have h3 := (abs_sub a (b * c))
    linarith

theorem sin_lip (x y : ℝ) : |Real.sin x - Real.sin y| ≤ |x - y| := by
  rw [Real.sin_sub_sin, abs_mul, abs_mul]
  have h1 := Real.abs_sin_le_abs (x := (x - y) / 2)
  have h2 := abs_cos_le_one ((x + y) / 2)
  rw [abs_div, abs_of_pos (by norm_num : (0 : ℝ) < 2)] at h1
  rw [abs_of_pos (by norm_num : (0 : ℝ) < 2)]
  nlinarith [abs_nonneg (Real.sin ((x - y) / 2)), abs_nonneg (Real.cos ((x + y) / 2))]

/-- The left side of Kepler's equation does not decrease, nor grow faster than twice the anomaly. -/
theorem kepler_mono {e x y : ℝ} (h0 : 0 ≤ e) (h1 : e ≤ 1) (h : x ≤ y) :
    x - e * Real.sin x ≤ y - e * Real.sin y ∧ y - e * Real.sin y ≤ x - e * Real.sin x + 2 * (y - x) ∧
    (1 - e) * (y - x) ≤ (y - e * Real.sin y) - (x - e * Real.sin x) := by
  have := sin_lip y x
  rw [abs_of_nonneg (sub_nonneg.mpr h), abs_le] at this
  refine ⟨?_, ?_, ?_⟩ <;> nlinarith

/-- The library's sine on the range used. -/
theorem lsin {l : Trig} (hl : l.Ok) {e x : ℝ} (h0 : 0 ≤ e) (h1 : e ≤ 1) (hx : |x| ≤ 2 ^ 29) :
    |e * l.sin x| ≤ 1.001 ∧ |e * l.sin x - e * Real.sin x| ≤ e * 1e-15 := by
  have a := hl.sin x hx
  have b : |e * l.sin x - e * Real.sin x| ≤ e * 1e-15 := by
    rw [← mul_sub, abs_mul, abs_of_nonneg h0]
    exact mul_le_mul_of_nonneg_left a h0
  refine ⟨?_, b⟩
  have c : |e * Real.sin x| ≤ 1 := by
    rw [abs_mul, abs_of_nonneg h0]
    nlinarith [abs_sin_le_one x, abs_nonneg (Real.sin x)]
  rw [abs_le] at b c ⊢
  constructor <;> linarith [b.1, b.2, c.1, c.2]

/- Kepler3. -/

theorem loop3 {l : Trig} (hl : l.Ok) {e MR : ℝ} (h0 : 0 ≤ e) (h1 : e ≤ 1) :
    ∀ (n : ℕ) (E d r η ρ : ℝ), Loop3 l e MR n E d r → 0 ≤ d → d ≤ 1 → 0 ≤ η → 0 ≤ ρ → ρ + n * 1e-15 ≤ 1e-12 →
      (∃ x, |x - e * Real.sin x - MR| ≤ 2e-15 ∧ |E - x| ≤ 2 * d + η) → |E - π / 2| + 2 * d ≤ π / 2 + ρ →
      ∃ x, |x - e * Real.sin x - MR| ≤ 2e-15 ∧ |r - x| ≤ 2 * (d * (1 / 2) ^ n + 2e-16 * (1 - (1 / 2) ^ n)) + η + n * 6.5e-16 ∧ |r - π / 2| ≤ π / 2 + ρ + n * 1e-15 := by
  intro n
  induction n with
  | zero =>
    intro E d r η ρ h hd hd1 hη hρ hρn hx hE
    cases h
    obtain ⟨x, hx1, hx2⟩ := hx
    exact ⟨x, hx1, by norm_num; linarith, by norm_num; linarith⟩
  | succ n ih =>
    intro E d r η ρ h hd hd1 hη hρ hρn hx hE
    rcases h with _ | ⟨hp, hr⟩
    rename_i E' d'
    obtain ⟨⟨M1, hM, hb⟩, hd'⟩ := hp
    obtain ⟨x, hx1, hx2⟩ := hx
    push_cast at hρn
    have hn : (0 : ℝ) ≤ n := Nat.cast_nonneg n
    have hpi := pi_lt_d2
    have hpi0 := pi_gt_d2
    norm_num at hpi hpi0
    have hEa := abs_le.mp (show |E - π / 2| ≤ π / 2 + ρ - 2 * d by linarith)
    have hEabs : |E| ≤ 3.2 := abs_le.mpr ⟨by linarith [hEa.1], by linarith [hEa.2]⟩
    obtain ⟨hs1, hs2⟩ := lsin hl h0 h1 (x := E) (by norm_num; linarith)
    have hMc := mulSub_close hM hs1
    have hMe : |M1 - (E - e * Real.sin E)| ≤ 1.9e-15 := by
      rw [abs_le] at hMc hs2 ⊢
      constructor <;> linarith [hMc.1, hMc.2, hs2.1, hs2.2]
    rw [abs_le] at hMe
    have hx1' := abs_le.mp hx1
    have hx2' := abs_le.mp hx2
    have hdd := fl_err' (d * 0.5)
    rw [← hd', abs_of_nonneg (show (0 : ℝ) ≤ d * 0.5 by positivity)] at hdd
    rw [abs_le] at hdd
    have hd'0 : 0 ≤ d' := by
      rw [hd']
      exact le_fl (by simpa using rep_int (n := 0) (by norm_num)) (by linarith)
    -- the new point and its anchor
    have key : (∃ y, |y - e * Real.sin y - MR| ≤ 2e-15 ∧ |E' - y| ≤ d + η + 5.2e-16) ∧ |E' - π / 2| ≤ |E - π / 2| + d + 5.2e-16 := by
      rcases hb with ⟨hlt, hE'⟩ | ⟨hge, hE'⟩
      · have h := fl_sgn hlt
        have hf := fl_err' (E - d)
        rw [← hE'] at hf
        have hab : |E - d| ≤ 4.2 := (abs_sub _ _).trans (by rw [abs_of_nonneg hd]; linarith)
        have hf' := abs_le.mp (hf.trans (show _ ≤ 5.2e-16 by linarith))
        refine ⟨?_, ?_⟩
        · rcases le_total x E with hxE | hxE
          · exact ⟨x, hx1, abs_le.mpr ⟨by linarith [hf'.1], by linarith [hf'.2]⟩⟩
          · obtain ⟨m1, -, -⟩ := kepler_mono h0 h1 hxE
            refine ⟨E, abs_le.mpr ⟨by linarith, by linarith⟩, abs_le.mpr ⟨by linarith [hf'.1], by linarith [hf'.2]⟩⟩
        · have e1 : E' - π / 2 = (E - π / 2) + (E' - E) := by ring
          rw [e1]
          refine (abs_add_le _ _).trans ?_
          have : |E' - E| ≤ d + 5.2e-16 := abs_le.mpr ⟨by linarith [hf'.1], by linarith [hf'.2]⟩
          linarith
      · have h : -1e-20 ≤ MR - M1 := by
          by_contra hc
          push Not at hc
          have := fl_err' (MR - M1)
          rw [abs_of_neg (by linarith : MR - M1 < 0), abs_le] at this
          linarith [this.2]
        have hf := fl_err' (E + d)
        rw [← hE'] at hf
        have hab : |E + d| ≤ 4.2 := (abs_add_le _ _).trans (by rw [abs_of_nonneg hd]; linarith)
        have hf' := abs_le.mp (hf.trans (show _ ≤ 5.2e-16 by linarith))
        refine ⟨?_, ?_⟩
        · rcases le_total E x with hxE | hxE
          · exact ⟨x, hx1, abs_le.mpr ⟨by linarith [hf'.1], by linarith [hf'.2]⟩⟩
          · obtain ⟨m1, -, -⟩ := kepler_mono h0 h1 hxE
            refine ⟨E, abs_le.mpr ⟨by linarith, by linarith⟩, abs_le.mpr ⟨by linarith [hf'.1], by linarith [hf'.2]⟩⟩
        · have e1 : E' - π / 2 = (E - π / 2) + (E' - E) := by ring
          rw [e1]
          refine (abs_add_le _ _).trans ?_
          have : |E' - E| ≤ d + 5.2e-16 := abs_le.mpr ⟨by linarith [hf'.1], by linarith [hf'.2]⟩
          linarith
    obtain ⟨⟨y, hy1, hy2⟩, hE2⟩ := key
    obtain ⟨z, hz1, hz2, hz3⟩ := ih E' d' r (η + 6.5e-16) (ρ + 1e-15) hr hd'0 (by linarith) (by linarith) (by linarith) (by linarith)
      ⟨y, hy1, by linarith⟩ (by linarith)
    refine ⟨z, hz1, hz2.trans ?_, hz3.trans ?_⟩
    · push_cast
      have hq : d' * (1 / 2) ^ n ≤ d * (1 / 2) ^ (n + 1) + 6.1e-17 * (1 / 2) ^ n := by
        have : d' ≤ d * (1 / 2) + 6.1e-17 := by linarith [hdd.2]
        calc d' * (1 / 2) ^ n ≤ (d * (1 / 2) + 6.1e-17) * (1 / 2) ^ n := mul_le_mul_of_nonneg_right this (by positivity)
          _ = _ := by ring
      have hp : (0 : ℝ) < (1 / 2) ^ n := by positivity
      have hs : ((1 : ℝ) / 2) ^ (n + 1) = (1 / 2) ^ n / 2 := by ring
      rw [hs] at hq ⊢
      linarith
    · push_cast
      linarith

/-- The starting value and the first step. -/
theorem start3 : |fl (π * 0.5) - π / 2| ≤ 2e-16 ∧ |fl (π * 0.25) - π / 4| ≤ 1e-16 ∧ |fl π - π| ≤ 4e-16 ∧ |fl (2 * π) - 2 * π| ≤ 8e-16 := by
  have hpi := pi_lt_d2
  have hpi0 := pi_pos
  norm_num at hpi
  refine ⟨?_, ?_, ?_, ?_⟩
  · have := fl_err' (π * 0.5)
    rw [abs_of_pos (show 0 < π * 0.5 by positivity)] at this
    rw [show π / 2 = π * 0.5 by ring]
    linarith
  · have := fl_err' (π * 0.25)
    rw [abs_of_pos (show 0 < π * 0.25 by positivity)] at this
    rw [show π / 4 = π * 0.25 by ring]
    linarith
  · have := fl_err' π
    rw [abs_of_pos hpi0] at this
    linarith
  · have := fl_err' (2 * π)
    rw [abs_of_pos (show 0 < 2 * π by positivity)] at this
    linarith

/-- An anomaly for the mean anomaly given. -/
theorem root3 {e MR : ℝ} (hM0 : 0 ≤ MR) (hM1 : MR ≤ π + 2e-15) : ∃ x, 0 ≤ x ∧ x ≤ π ∧ |x - e * Real.sin x - MR| ≤ 2e-15 := by
  rcases le_or_gt MR π with h | h
  · have hc : ContinuousOn (fun x => x - e * Real.sin x) (Set.Icc 0 π) := by fun_prop
    have := intermediate_value_Icc pi_pos.le hc
    simp only [Real.sin_zero, Real.sin_pi, mul_zero, sub_zero] at this
    obtain ⟨x, ⟨hx0, hx1⟩, hx⟩ := this ⟨hM0, h⟩
    refine ⟨x, hx0, hx1, ?_⟩
    simp only at hx
    rw [hx, sub_self, abs_zero]
    norm_num
  · refine ⟨π, pi_pos.le, le_rfl, ?_⟩
    rw [Real.sin_pi, mul_zero, sub_zero, abs_le]
    constructor <;> linarith

theorem kepler_lip {e x y : ℝ} (h0 : 0 ≤ e) (h1 : e ≤ 1) :
    |(x - e * Real.sin x) - (y - e * Real.sin y)| ≤ 2 * |x - y| ∧ (1 - e) * |x - y| ≤ |(x - e * Real.sin x) - (y - e * Real.sin y)| := by
  rcases le_total x y with h | h
  · obtain ⟨a, b, c⟩ := kepler_mono h0 h1 h
    rw [abs_of_nonpos (by linarith : (x - e * Real.sin x) - (y - e * Real.sin y) ≤ 0), abs_of_nonpos (by linarith : x - y ≤ 0)]
    constructor <;> linarith
  · obtain ⟨a, b, c⟩ := kepler_mono h0 h1 h
    rw [abs_of_nonneg (by linarith : 0 ≤ (x - e * Real.sin x) - (y - e * Real.sin y)), abs_of_nonneg (by linarith : 0 ≤ x - y)]
    constructor <;> linarith

theorem run3 {l : Trig} (hl : l.Ok) {e MR r : ℝ} (h0 : 0 ≤ e) (h1 : e ≤ 1) (hM0 : 0 ≤ MR) (hM1 : MR ≤ π + 2e-15)
    (h : Loop3 l e MR 53 (fl (π * 0.5)) (fl (π * 0.25)) r) : |r - e * Real.sin r - MR| ≤ 7.6e-14 ∧ -1e-13 ≤ r ∧ r ≤ π + 1e-13 := by
  obtain ⟨s1, s2, -, -⟩ := start3
  have hpi := pi_lt_d2
  have hpi0 := pi_gt_d2
  norm_num at hpi hpi0
  have s1' := abs_le.mp s1
  have s2' := abs_le.mp s2
  obtain ⟨x, hx0, hx1, hx⟩ := root3 (e := e) hM0 hM1
  obtain ⟨y, hy1, hy2, hy3⟩ := loop3 hl h0 h1 53 _ _ r 1e-15 1e-15 h (by linarith [s2'.1]) (by linarith [s2'.2]) (by norm_num) (by norm_num)
    (by norm_num) ⟨x, hx, abs_le.mpr ⟨by linarith [s1'.1, s2'.1], by linarith [s1'.2, s2'.1]⟩⟩ (by linarith [s2'.2])
  have hd : fl (π * 0.25) * (1 / 2) ^ 53 ≤ 1 * (1 / 2) ^ 53 := mul_le_mul_of_nonneg_right (by linarith [s2'.2]) (by positivity)
  have hry : |r - y| ≤ 3.65e-14 := by
    refine hy2.trans ?_
    have : (1 : ℝ) * (1 / 2) ^ 53 ≤ 1.2e-16 := by norm_num
    have h2 : (0 : ℝ) ≤ (1 / 2) ^ 53 := by positivity
    push_cast
    linarith
  have hlip := (kepler_lip h0 h1 (x := r) (y := y)).1
  have hy3' := abs_le.mp hy3
  push_cast at hy3'
  refine ⟨?_, by linarith [hy3'.1], by linarith [hy3'.2]⟩
  have e1 : r - e * Real.sin r - MR = ((r - e * Real.sin r) - (y - e * Real.sin y)) + (y - e * Real.sin y - MR) := by ring
  rw [e1]
  refine (abs_add_le _ _).trans ?_
  linarith

/-- C186.  Kepler3, for every eccentricity up to 1 and every reduced mean anomaly, returns in double precision a number that satisfies Kepler's equation to
8·10⁻¹⁴, and lies within 8·10⁻¹⁴/(1 − e) of the solution. -/
theorem C186_kepler3 (l : Trig) (hl : l.Ok) (e M r : ℝ) (h0 : 0 ≤ e) (h1 : e ≤ 1) (hM0 : 0 ≤ M) (hM1 : M ≤ fl (2 * π)) (h : Kepler3 l e M r) :
    ∃ k : ℤ, (k = 0 ∨ k = 1) ∧ |r - e * Real.sin r - (M - k * (2 * π))| ≤ 8e-14 ∧ |r| ≤ π + 1e-13 ∧
      ∀ E, E - e * Real.sin E = M - k * (2 * π) → (1 - e) * |r - E| ≤ 8e-14 := by
  obtain ⟨-, -, s3, s4⟩ := start3
  have hpi0 := pi_pos
  have hpi := pi_lt_d2
  norm_num at hpi
  have s3' := abs_le.mp s3
  have s4' := abs_le.mp s4
  have fin : ∀ k : ℤ, |r - e * Real.sin r - (M - k * (2 * π))| ≤ 8e-14 →
      ∀ E, E - e * Real.sin E = M - k * (2 * π) → (1 - e) * |r - E| ≤ 8e-14 := by
    intro k hk E hE
    rw [← hE] at hk
    exact (kepler_lip h0 h1).2.trans hk
  by_cases hb : fl π < M
  · obtain ⟨E, hE, hr⟩ := h.1 hb
    have hf := fl_err' (fl (2 * π) - M)
    rw [abs_of_nonneg (show 0 ≤ fl (2 * π) - M by linarith)] at hf
    have hf' := abs_le.mp hf
    have hMR0 : 0 ≤ fl (fl (2 * π) - M) := le_fl (by simpa using rep_int (n := 0) (by norm_num)) (by linarith)
    obtain ⟨r1, r2, r3⟩ := run3 hl h0 h1 hMR0 (by linarith [hf'.2, s4'.2, s3'.1]) hE
    have r1' := abs_le.mp r1
    have hk : |r - e * Real.sin r - (M - (1 : ℤ) * (2 * π))| ≤ 8e-14 := by
      rw [hr, Real.sin_neg, abs_le]
      push_cast
      constructor <;> linarith [hf'.1, hf'.2, s4'.1, s4'.2]
    refine ⟨1, Or.inr rfl, hk, ?_, fin 1 hk⟩
    rw [hr, abs_neg, abs_le]
    constructor <;> linarith
  · obtain ⟨r1, r2, r3⟩ := run3 hl h0 h1 hM0 (by linarith [s3'.2]) (h.2 hb)
    have hk : |r - e * Real.sin r - (M - (0 : ℤ) * (2 * π))| ≤ 8e-14 := by
      push_cast
      rw [zero_mul, sub_zero]
      linarith
    exact ⟨0, Or.inl rfl, hk, abs_le.mpr ⟨by linarith, by linarith⟩, fin 0 hk⟩

/- Kepler1. -/

/-- What `DecimalPlaces` has found. -/
theorem decimal_some {better : ℝ → ℝ → Prop} {d : ℝ} {P : ℝ → Prop} (hP : ∀ s x, P s → better s x → P x) :
    ∀ (n : ℕ) (s : ℝ) (r : Option ℝ), Decimal better d n s r → P s → ∀ E, r = some E → ∃ t, P t ∧ better t E ∧ |fl (E - t)| < d := by
  intro n s r h
  induction h with
  | fail => intro _ E hE; exact absurd hE (by simp)
  | found hb hd =>
    rename_i s x
    intro hs E hE
    obtain rfl : x = E := by simpa using hE
    exact ⟨s, hs, hb, hd⟩
  | next hb _ _ ih => intro hs E hE; exact ih (hP _ _ hs hb) E hE

theorem diff_small {x s d : ℝ} (h : |fl (x - s)| < d) (hd : d ≤ 0.2) : |x - s| ≤ d + 3e-17 := by
  have h1 := fl_err' (x - s)
  have h2 : |x - s| ≤ |fl (x - s)| + |fl (x - s) - (x - s)| := by
    have := abs_sub (fl (x - s)) (fl (x - s) - (x - s))
    rwa [sub_sub_cancel] at this
  have h3 : |x - s| ≤ 0.25 := by linarith
  linarith

theorem step1_close {l : Trig} (hl : l.Ok) {e M s x : ℝ} (h0 : 0 ≤ e) (h1 : e ≤ 1) (hs : |s| ≤ 2 ^ 29) (h : step1 l e M s x) :
    |x - (M + e * Real.sin s)| ≤ (|M| + 12) * 1.2e-16 := by
  obtain ⟨a, b⟩ := lsin hl h0 h1 hs
  have c := mulAdd_close h a
  rw [abs_le] at b c ⊢
  constructor <;> linarith [b.1, b.2, c.1, c.2]

theorem step1_range {l : Trig} (hl : l.Ok) {e M s x : ℝ} (h0 : 0 ≤ e) (h1 : e ≤ 1) (hM : |M| ≤ 2 ^ 28) (hs : |s| ≤ 2 ^ 29) (h : step1 l e M s x) :
    |x| ≤ 2 ^ 29 := by
  have c := step1_close hl h0 h1 hs h
  have hsin : |e * Real.sin s| ≤ 1 := by
    rw [abs_mul, abs_of_nonneg h0]
    nlinarith [abs_sin_le_one s, abs_nonneg (Real.sin s)]
  have hM' := abs_le.mp hM
  rw [abs_le] at c hsin ⊢
  norm_num at hM hM' ⊢
  constructor <;> linarith [c.1, c.2, hsin.1, hsin.2]

/-- C186.  What Kepler1 returns without an error satisfies Kepler's equation to the places asked for, times e, and the rounding of the mean anomaly.
`d` is what `math.Pow(10, -places)` gives. -/
theorem C186_kepler1 (l : Trig) (hl : l.Ok) (e M d E : ℝ) (n : ℕ) (h0 : 0 ≤ e) (h1 : e ≤ 1) (hM : |M| ≤ 2 ^ 28) (hd : d ≤ 0.2)
    (h : Decimal (step1 l e M) d n M (some E)) : |E - e * Real.sin E - M| ≤ e * d + (|M| + 13) * 1.2e-16 := by
  obtain ⟨t, ht, hb, hlt⟩ := decimal_some (P := fun s => |s| ≤ 2 ^ 29) (fun s x hs hx => step1_range hl h0 h1 hM hs hx) n M _ h
    (by norm_num at hM ⊢; linarith) E rfl
  have c := step1_close hl h0 h1 ht hb
  have g := diff_small hlt hd
  have q := (sin_lip E t).trans g
  have q2 : |e * Real.sin E - e * Real.sin t| ≤ e * (d + 3e-17) := by
    rw [← mul_sub, abs_mul, abs_of_nonneg h0]
    exact mul_le_mul_of_nonneg_left q h0
  rw [abs_le] at c q2 ⊢
  constructor <;> linarith [c.1, c.2, q2.1, q2.2]

theorem decimal_none {l : Trig} (hl : l.Ok) {e M d : ℝ} (h0 : 0 ≤ e) (h1 : e ≤ 0.6) (hM : |M| ≤ 10) :
    ∀ (n : ℕ) (s : ℝ) (r : Option ℝ), Decimal (step1 l e M) d n s r → r = none → ∀ k : ℕ, |s| ≤ 2 ^ 29 →
      (∀ x, step1 l e M s x → |x - s| ≤ 0.6 ^ k + 1.4e-14) → n = 0 ∨ d ≤ 0.6 ^ (k + (n - 1)) + 1.5e-14 := by
  intro n s r h
  induction h with
  | fail => intro _ _ _ _; exact Or.inl rfl
  | found _ _ => intro hr; exact absurd hr (by simp)
  | next hb hnd hrest ih =>
    rename_i m s x r
    intro hr k hs hB
    right
    have hxs := hB x hb
    have hx : |x| ≤ 2 ^ 29 := step1_range hl h0 (by linarith) (by norm_num at hM ⊢; linarith) hs hb
    have c1 := step1_close hl h0 (by linarith) hs hb
    have next : ∀ y, step1 l e M x y → |y - x| ≤ 0.6 ^ (k + 1) + 1.4e-14 := by
      intro y hy
      have c2 := step1_close hl h0 (by linarith) hx hy
      have q := (sin_lip x s).trans hxs
      have q2 : |e * Real.sin x - e * Real.sin s| ≤ 0.6 * (0.6 ^ k + 1.4e-14) := by
        rw [← mul_sub, abs_mul, abs_of_nonneg h0]
        exact mul_le_mul h1 q (abs_nonneg _) (by norm_num)
      rw [pow_succ]
      rw [abs_le] at c1 c2 q2 ⊢
      constructor <;> linarith [c1.1, c1.2, c2.1, c2.2, q2.1, q2.2]
    rcases ih hr (k + 1) hx next with hm | hm
    · subst hm
      have hf := fl_err' (x - s)
      have hf2 : |fl (x - s)| ≤ |x - s| + |fl (x - s) - (x - s)| := by
        have := abs_add_le (x - s) (fl (x - s) - (x - s))
        rwa [add_sub_cancel] at this
      have hp : (0.6 : ℝ) ^ k ≤ 1 := pow_le_one₀ (by norm_num) (by norm_num)
      push Not at hnd
      simp only [zero_add, Nat.sub_self, add_zero]
      linarith
    · rcases Nat.eq_zero_or_pos m with h | h
      · subst h
        cases hrest
        have hf := fl_err' (x - s)
        have hf2 : |fl (x - s)| ≤ |x - s| + |fl (x - s) - (x - s)| := by
          have := abs_add_le (x - s) (fl (x - s) - (x - s))
          rwa [add_sub_cancel] at this
        have hp : (0.6 : ℝ) ^ k ≤ 1 := pow_le_one₀ (by norm_num) (by norm_num)
        push Not at hnd
        simp only [zero_add, Nat.sub_self, add_zero]
        linarith
      · rwa [show k + 1 + (m - 1) = k + (m + 1 - 1) by omega] at hm

/-- C186.  For eccentricities up to 0.6 and mean anomalies up to 10, Kepler1 does not fail: 5·places iterations are enough for 1 to 13 places. -/
theorem C186_kepler1_converges (l : Trig) (hl : l.Ok) (e M d : ℝ) (p : ℕ) (r : Option ℝ) (h0 : 0 ≤ e) (h1 : e ≤ 0.6) (hM : |M| ≤ 10)
    (hp1 : 1 ≤ p) (hp2 : p ≤ 13) (hd : |d - 10 ^ (-(p : ℤ))| ≤ 1e-15 * 10 ^ (-(p : ℤ)))
    (h : Decimal (step1 l e M) d (p * 5) M r) : r ≠ none := by
  intro hr
  have hM9 : |M| ≤ 2 ^ 29 := by norm_num at hM ⊢; linarith
  have first : ∀ x, step1 l e M M x → |x - M| ≤ 0.6 ^ 1 + 1.4e-14 := by
    intro x hx
    have c := step1_close hl h0 (by linarith) hM9 hx
    have q : |e * Real.sin M| ≤ 0.6 := by
      rw [abs_mul, abs_of_nonneg h0]
      nlinarith [abs_sin_le_one M, abs_nonneg (Real.sin M)]
    rw [abs_le] at c q ⊢
    norm_num
    constructor <;> linarith [c.1, c.2, q.1, q.2]
  rcases decimal_none hl h0 h1 hM _ _ _ h hr 1 hM9 first with hz | hz
  · omega
  · have hd' := (abs_le.mp hd).1
    interval_cases p <;> norm_num at hd' hz <;> linarith

/- Kepler2 and Kepler2b. -/

/-- The largest number below 1. -/
theorem rep_lt_one {e : ℝ} (h : Rep e) (h1 : e < 1) : e ≤ 1 - 1 / 2 ^ 53 := by
  obtain ⟨m, k, rfl, hm, -⟩ := h
  rcases le_or_gt (-53) k with hk | hk
  · obtain ⟨j, hj⟩ : ∃ j : ℕ, k = j - 53 := ⟨(k + 53).toNat, by omega⟩
    have e1 : (m : ℝ) * 2 ^ k = ((m * 2 ^ j : ℤ) : ℝ) / 2 ^ 53 := by
      rw [hj, zpow_sub₀ (by norm_num)]
      push_cast
      rw [zpow_natCast, mul_div_assoc]
      norm_cast
    rw [e1] at h1 ⊢
    rw [div_lt_one (by positivity)] at h1
    have h2 : m * 2 ^ j < 2 ^ 53 := by exact_mod_cast h1
    have h3 : m * 2 ^ j ≤ 2 ^ 53 - 1 := by omega
    have h4 : ((m * 2 ^ j : ℤ) : ℝ) ≤ 2 ^ 53 - 1 := by exact_mod_cast h3
    rw [div_le_iff₀ (by positivity)]
    norm_num at h4 ⊢
    linarith
  · have hm' : (m : ℝ) ≤ 2 ^ 53 := by
      have := (abs_le.mp hm).2
      exact_mod_cast this
    have h2 : (2 : ℝ) ^ k ≤ 2 ^ (-54 : ℤ) := zpow_le_zpow_right₀ (by norm_num) (by omega)
    have h3 : (m : ℝ) * 2 ^ k ≤ 2 ^ 53 * 2 ^ (-54 : ℤ) := by
      rcases le_or_gt 0 (m : ℝ) with h | h
      · exact mul_le_mul hm' h2 (by positivity) (by positivity)
      · have : (m : ℝ) * 2 ^ k ≤ 0 := mul_nonpos_of_nonpos_of_nonneg h.le (by positivity)
        refine this.trans (by positivity)
    norm_num at h3 ⊢
    linarith

/-- What is assumed of the library besides: sines and cosines do not exceed 1. -/
structure Unit1 (l : Trig) : Prop where
  sin : ∀ x, |l.sin x| ≤ 1
  cos : ∀ x, |l.cos x| ≤ 1

theorem denom_pos {l : Trig} (hu : Unit1 l) {e s b : ℝ} (h0 : 0 ≤ e) (hr : Rep e) (h1 : e < 1) (h : MulSub 1 e (l.cos s) b) : 0 < b := by
  have he := rep_lt_one hr h1
  have hc : e * l.cos s ≤ e := by nlinarith [(abs_le.mp (hu.cos s)).2]
  have hz : Rep (1 / 2 ^ 53) := ⟨1, -53, by norm_num, by norm_num, by norm_num⟩
  have key : ∀ z, z ≤ e → 0 < fl (1 - z) := by
    intro z hzz
    have := le_fl hz (show 1 / 2 ^ 53 ≤ 1 - z by linarith)
    refine lt_of_lt_of_le (by positivity) this
  rcases h with h | h
  · rw [h]; exact key _ (fl_le hr hc)
  · rw [h]; exact key _ hc

theorem sin_taylor {s q : ℝ} (hq : |q| ≤ 1) : |Real.sin (s + q) - Real.sin s - q * Real.cos s| ≤ q ^ 2 := by
  have hq' := abs_le.mp hq
  have c1 := Real.one_sub_sq_div_two_le_cos (x := q)
  have c2 := Real.cos_le_one q
  have h2 : |Real.sin q - q| ≤ q ^ 2 / 2 := by
    rcases lt_trichotomy q 0 with h | h | h
    · have a := Real.sin_lt (x := -q) (by linarith)
      have b := Real.sin_gt_sub_cube (x := -q) (by linarith)
      rw [Real.sin_neg] at a b
      rw [abs_le]
      constructor <;> nlinarith
    · rw [h]; simp
    · have a := Real.sin_lt (x := q) h
      have b := Real.sin_gt_sub_cube (x := q) h
      rw [abs_le]
      constructor <;> nlinarith
  have e1 : Real.sin (s + q) - Real.sin s - q * Real.cos s = Real.sin s * (Real.cos q - 1) + Real.cos s * (Real.sin q - q) := by
    rw [Real.sin_add]; ring
  rw [e1]
  refine (abs_add_le _ _).trans ?_
  rw [abs_mul, abs_mul]
  have h1 : |Real.cos q - 1| ≤ q ^ 2 / 2 := abs_le.mpr ⟨by linarith, by linarith [sq_nonneg q]⟩
  nlinarith [abs_sin_le_one s, abs_cos_le_one s, abs_nonneg (Real.sin s), abs_nonneg (Real.cos s), abs_nonneg (Real.cos q - 1), abs_nonneg (Real.sin q - q)]

/-- The correction times its denominator, and the numerator, in terms of the exact ones. -/
theorem newton_close {l : Trig} (hu : Unit1 l) {e M s q : ℝ} (h0 : 0 ≤ e) (hr : Rep e) (h1 : e < 1) (h : newton l e M s q) :
    |q * (1 - e * l.cos s) - (M + e * l.sin s - s)| ≤ (|M| + 3) * 1.2e-16 + |q| * 1.1e-15 + 1e-28 := by
  obtain ⟨a, b, ha, hb, hq⟩ := h
  have hbp := denom_pos hu h0 hr h1 hb
  have hsb : |e * l.sin s| ≤ 1 := by
    rw [abs_mul, abs_of_nonneg h0]; nlinarith [hu.sin s, abs_nonneg (l.sin s)]
  have hcb : |e * l.cos s| ≤ 1 := by
    rw [abs_mul, abs_of_nonneg h0]; nlinarith [hu.cos s, abs_nonneg (l.cos s)]
  have ca := mulAdd_close ha (by linarith)
  have cb := mulSub_close hb (by linarith)
  rw [abs_one] at cb
  have hcb' := abs_le.mp hcb
  have hb2 : b ≤ 2.001 := by linarith [(abs_le.mp cb).2]
  set w := a - s with hw
  have cn := fl_err' w
  set num := fl w with hnum
  have cq := fl_err' (num / b)
  rw [← hq] at cq
  have cqb : |q * b - num| ≤ |num| * 1.2e-16 + 1e-29 := by
    have e1 : q * b - num = (q - num / b) * b := by field_simp
    rw [e1, abs_mul, abs_of_pos hbp]
    have e2 : |num / b| * b = |num| := by
      rw [abs_div, abs_of_pos hbp, div_mul_cancel₀ _ hbp.ne']
    calc |q - num / b| * b ≤ (|num / b| * 1.2e-16 + 1e-30) * b := mul_le_mul_of_nonneg_right cq hbp.le
      _ = |num / b| * b * 1.2e-16 + 1e-30 * b := by ring
      _ ≤ _ := by rw [e2]; linarith
  have hqb : |q * b| ≤ |q| * 2.001 := by
    rw [abs_mul, abs_of_pos hbp]; exact mul_le_mul_of_nonneg_left hb2 (abs_nonneg q)
  have hnb : |num| ≤ |q| * 2.002 + 1e-28 := by
    have : |num| ≤ |q * b| + |q * b - num| := by
      have := abs_sub (q * b) (q * b - num)
      rwa [sub_sub_cancel] at this
    linarith [abs_nonneg q]
  have hwb : |w| ≤ |q| * 2.003 + 1e-27 := by
    have : |w| ≤ |num| + |num - w| := by
      have := abs_sub num (num - w)
      rwa [sub_sub_cancel] at this
    linarith [abs_nonneg q]
  have hbq : |q * b - q * (1 - e * l.cos s)| ≤ |q| * 4.9e-16 := by
    rw [← mul_sub, abs_mul]
    exact mul_le_mul_of_nonneg_left (cb.trans (by norm_num)) (abs_nonneg q)
  rw [abs_le] at ca cn cqb hbq ⊢
  have hq0 := abs_nonneg q
  constructor <;> linarith [ca.1, ca.2, cn.1, cn.2, cqb.1, cqb.2, hbq.1, hbq.2]

/-- The residual after the last correction. -/
theorem newton_final {l : Trig} (hl : l.Ok) (hu : Unit1 l) {e M s q x d : ℝ} (h0 : 0 ≤ e) (hr : Rep e) (h1 : e < 1) (hM : |M| ≤ 2 ^ 28)
    (h : newton l e M s q) (hx : x = fl (s + q)) (hd : d ≤ 0.2) (hlt : |fl (x - s)| < d) :
    |x - e * Real.sin x - M| ≤ e * d ^ 2 + (|M| + 10) * 4.8e-16 := by
  have cn := newton_close hu h0 hr h1 h
  have g := diff_small hlt hd
  have cx := fl_err' (s + q)
  rw [← hx] at cx
  have hd0 : 0 < d := lt_of_le_of_lt (abs_nonneg _) hlt
  norm_num at hM
  have hsb : |e * l.sin s| ≤ 1 := by
    rw [abs_mul, abs_of_nonneg h0]; nlinarith [hu.sin s, abs_nonneg (l.sin s)]
  have hcb : |1 - e * l.cos s| ≤ 2 := by
    have : |e * l.cos s| ≤ 1 := by
      rw [abs_mul, abs_of_nonneg h0]; nlinarith [hu.cos s, abs_nonneg (l.cos s)]
    refine (abs_sub _ _).trans ?_
    rw [abs_one]; linarith
  have hqc : |q * (1 - e * l.cos s)| ≤ |q| * 2 := by
    rw [abs_mul]; exact mul_le_mul_of_nonneg_left hcb (abs_nonneg q)
  have hq0 := abs_nonneg q
  have hs0 := abs_nonneg s
  have hM0 := abs_nonneg M
  -- bounds of the point and the correction
  have hsq : |s + q| ≤ |s| + |q| := abs_add_le _ _
  have hqb : |q| ≤ |x - s| + |x - (s + q)| := by
    have := abs_sub (x - s) (x - (s + q))
    rwa [show x - s - (x - (s + q)) = q by ring] at this
  have hsb2 : |s| ≤ |M| + 1 + |q| * 2 + ((|M| + 3) * 1.2e-16 + |q| * 1.1e-15 + 1e-28) := by
    have e1 : s = M + e * l.sin s - q * (1 - e * l.cos s) + (q * (1 - e * l.cos s) - (M + e * l.sin s - s)) := by ring
    have t1 := abs_add_le (M + e * l.sin s - q * (1 - e * l.cos s)) (q * (1 - e * l.cos s) - (M + e * l.sin s - s))
    have t2 := abs_sub (M + e * l.sin s) (q * (1 - e * l.cos s))
    have t3 := abs_add_le M (e * l.sin s)
    rw [← e1] at t1
    linarith
  have hqs : |q| ≤ 0.25 := by linarith
  have hs : |s| ≤ |M| + 1.6 := by linarith
  have hcx : |x - (s + q)| ≤ (|M| + 2) * 1.2e-16 := by linarith
  have hqd : |q| ≤ d + (|M| + 3) * 1.2e-16 := by linarith
  have ls := hl.sin s (by norm_num; linarith)
  have lc := hl.cos s (by norm_num; linarith)
  have lse : |e * l.sin s - e * Real.sin s| ≤ 1e-15 := by
    rw [← mul_sub, abs_mul, abs_of_nonneg h0]
    nlinarith [abs_nonneg (l.sin s - Real.sin s)]
  have lce : |q * (e * l.cos s) - q * (e * Real.cos s)| ≤ 0.25 * 1e-15 := by
    rw [← mul_sub, ← mul_sub, abs_mul, abs_mul, abs_of_nonneg h0]
    have : e * |l.cos s - Real.cos s| ≤ 1e-15 := by nlinarith [abs_nonneg (l.cos s - Real.cos s)]
    exact mul_le_mul hqs this (by positivity) (by norm_num)
  have ty := sin_taylor (s := s) (q := q) (by linarith)
  have tye : |e * (Real.sin (s + q) - Real.sin s - q * Real.cos s)| ≤ e * q ^ 2 := by
    rw [abs_mul, abs_of_nonneg h0]; exact mul_le_mul_of_nonneg_left ty h0
  have q2 : e * q ^ 2 ≤ e * d ^ 2 + (|M| + 3) * 0.6e-16 := by
    have a1 : q ^ 2 ≤ (d + (|M| + 3) * 1.2e-16) ^ 2 := by
      rw [← sq_abs]; exact pow_le_pow_left₀ hq0 hqd 2
    have a2 : (d + (|M| + 3) * 1.2e-16) ^ 2 ≤ d ^ 2 + (|M| + 3) * 0.6e-16 := by
      have : (d + (|M| + 3) * 1.2e-16) ^ 2 = d ^ 2 + (|M| + 3) * 1.2e-16 * (2 * d + (|M| + 3) * 1.2e-16) := by ring
      rw [this]
      have b : 2 * d + (|M| + 3) * 1.2e-16 ≤ 0.5 := by linarith
      have := mul_le_mul_of_nonneg_left b (show 0 ≤ (|M| + 3) * 1.2e-16 by positivity)
      linarith
    have a3 : e * q ^ 2 ≤ e * (d ^ 2 + (|M| + 3) * 0.6e-16) := mul_le_mul_of_nonneg_left (a1.trans a2) h0
    have a4 : e * ((|M| + 3) * 0.6e-16) ≤ (|M| + 3) * 0.6e-16 := by
      have : 0 ≤ (|M| + 3) * 0.6e-16 := by positivity
      nlinarith
    linarith
  have lip := (kepler_lip h0 h1.le (x := x) (y := s + q)).1
  have lip' := abs_le.mp (lip.trans (mul_le_mul_of_nonneg_left hcx (by norm_num)))
  rw [abs_le] at cn lse lce tye ⊢
  constructor <;> linarith [cn.1, cn.2, lse.1, lse.2, lce.1, lce.2, tye.1, tye.2, lip'.1, lip'.2]

/-- C186.  What Kepler2 returns without an error satisfies Kepler's equation to e times the square of the precision asked for, besides rounding. -/
theorem C186_kepler2 (l : Trig) (hl : l.Ok) (hu : Unit1 l) (e M d E : ℝ) (n : ℕ) (h0 : 0 ≤ e) (hr : Rep e) (h1 : e < 1) (hM : |M| ≤ 2 ^ 28) (hd : d ≤ 0.2)
    (h : Decimal (step2 l e M) d n M (some E)) : |E - e * Real.sin E - M| ≤ e * d ^ 2 + (|M| + 10) * 4.8e-16 := by
  obtain ⟨t, -, ⟨q, hq, hE⟩, hlt⟩ := decimal_some (P := fun _ => True) (fun _ _ _ _ => trivial) n M _ h trivial E rfl
  exact newton_final hl hu h0 hr h1 hM hq hE hd hlt

theorem clamp_abs (q : ℝ) : |clamp q| ≤ 0.5 ∧ (clamp q = q ∨ |clamp q| = 0.5) := by
  unfold clamp
  split_ifs with g1 g2
  · norm_num [abs_of_pos]
  · norm_num [abs_of_pos]
  · exact ⟨abs_le.mpr ⟨by linarith, by linarith⟩, Or.inl rfl⟩

/-- What `DecimalPlaces` has found, after a number of iterations. -/
theorem decimal_count {better : ℝ → ℝ → Prop} {d : ℝ} {P : ℕ → ℝ → Prop} (hP : ∀ n s x, P (n + 1) s → better s x → P n x) :
    ∀ (n : ℕ) (s : ℝ) (r : Option ℝ), Decimal better d n s r → P n s → ∀ E, r = some E → ∃ m t, P m t ∧ better t E ∧ |fl (E - t)| < d := by
  intro n s r h
  induction h with
  | fail => intro _ E hE; exact absurd hE (by simp)
  | found hb hd =>
    rename_i n s x
    intro hs E hE
    obtain rfl : x = E := by simpa using hE
    exact ⟨_, s, hs, hb, hd⟩
  | next hb _ _ ih => intro hs E hE; exact ih (hP _ _ _ hs hb) E hE

/-- C186.  The same for Kepler2b: the limit on the correction plays no part in the result. -/
theorem C186_kepler2b (l : Trig) (hl : l.Ok) (hu : Unit1 l) (e M d E : ℝ) (n : ℕ) (h0 : 0 ≤ e) (hr : Rep e) (h1 : e < 1) (hM : |M| ≤ 2 ^ 28) (hd : d ≤ 0.2)
    (hn : n ≤ 2 ^ 28) (h : Decimal (step2b l e M) d n M (some E)) : |E - e * Real.sin E - M| ≤ e * d ^ 2 + (|M| + 10) * 4.8e-16 := by
  have step : ∀ s q : ℝ, |s| ≤ 2 ^ 29 → |fl (s + clamp q) - (s + clamp q)| ≤ 0.001 := by
    intro s q hs
    have a := fl_err' (s + clamp q)
    have b := abs_add_le s (clamp q)
    have c := (clamp_abs q).1
    norm_num at hs
    linarith
  obtain ⟨m, t, ht, ⟨q, hq, hE⟩, hlt⟩ := decimal_count (P := fun m s => |s| ≤ 2 ^ 29 - m) (by
    intro m s x hs ⟨q, hq, hx⟩
    have hs' : |s| ≤ 2 ^ 29 := by push_cast at hs; linarith [(Nat.cast_nonneg m : (0 : ℝ) ≤ m)]
    have a := step s q hs'
    have b := abs_add_le s (clamp q)
    have c := (clamp_abs q).1
    rw [← hx] at a
    have g : |x| ≤ |s + clamp q| + |x - (s + clamp q)| := by
      have := abs_add_le (s + clamp q) (x - (s + clamp q))
      rwa [add_sub_cancel] at this
    push_cast at hs
    linarith) n M _ h (by
      have : (n : ℝ) ≤ 2 ^ 28 := by exact_mod_cast hn
      have e2 : (2 : ℝ) ^ 29 = 2 ^ 28 + 2 ^ 28 := by norm_num
      linarith) E rfl
  have ht' : |t| ≤ 2 ^ 29 := by linarith [(Nat.cast_nonneg m : (0 : ℝ) ≤ m)]
  have a := step t q ht'
  rw [← hE] at a
  have g := diff_small hlt hd
  rcases (clamp_abs q).2 with hc | hc
  · rw [hc] at hE
    exact newton_final hl hu h0 hr h1 hM hq hE hd hlt
  · exfalso
    have : |clamp q| ≤ |E - t| + |E - (t + clamp q)| := by
      have := abs_sub (E - t) (E - (t + clamp q))
      rwa [show E - t - (E - (t + clamp q)) = clamp q by ring] at this
    linarith

theorem loop3_exists (l : Trig) (e MR : ℝ) : ∀ (n : ℕ) (E d : ℝ), ∃ r, Loop3 l e MR n E d r := by
  intro n
  induction n with
  | zero => intro E d; exact ⟨E, .stop⟩
  | succ n ih =>
    intro E d
    by_cases hb : fl (MR - fl (E - fl (e * l.sin E))) < 0
    · obtain ⟨r, hr⟩ := ih (fl (E - d)) (fl (d * 0.5))
      exact ⟨r, .pass ⟨⟨_, Or.inl rfl, Or.inl ⟨hb, rfl⟩⟩, rfl⟩ hr⟩
    · obtain ⟨r, hr⟩ := ih (fl (E + d)) (fl (d * 0.5))
      exact ⟨r, .pass ⟨⟨_, Or.inl rfl, Or.inr ⟨hb, rfl⟩⟩, rfl⟩ hr⟩

theorem decimal_exists {better : ℝ → ℝ → Prop} (hb : ∀ s, ∃ x, better s x) (d : ℝ) : ∀ (n : ℕ) (s : ℝ), ∃ r, Decimal better d n s r := by
  intro n
  induction n with
  | zero => intro s; exact ⟨none, .fail⟩
  | succ n ih =>
    intro s
    obtain ⟨x, hx⟩ := hb s
    by_cases hd : |fl (x - s)| < d
    · exact ⟨some x, .found hx hd⟩
    · obtain ⟨r, hr⟩ := ih x
      exact ⟨r, .next hx hd hr⟩

/-- A case: with a correctly rounded library, the eccentricity ½ and the mean anomaly 1 rad, Kepler3 returns a number, Kepler1 finds one to 12 places, and
both satisfy Kepler's equation. -/
theorem C186_example : ∃ (l : Trig) (r E : ℝ), l.Ok ∧ Unit1 l ∧ Rep (1 / 2) ∧ Kepler3 l (1 / 2) 1 r ∧ |r - 1 / 2 * Real.sin r - 1| ≤ 8e-14 ∧
    Decimal (step1 l (1 / 2) 1) 1e-12 60 1 (some E) ∧ |E - 1 / 2 * Real.sin E - 1| ≤ 5.1e-13 := by
  obtain ⟨-, -, s3, s4⟩ := start3
  have hp := pi_gt_d2
  norm_num at hp
  have hM1 : (1 : ℝ) ≤ fl (2 * π) := by linarith [(abs_le.mp s4).1]
  have hM2 : ¬ fl π < (1 : ℝ) := by linarith [(abs_le.mp s3).1]
  set l : Trig := ⟨fun x => fl (Real.sin x), fun x => fl (Real.cos x)⟩
  have hl : l.Ok := trig_ok
  have one : Rep 1 := by simpa using rep_int (n := 1) (by norm_num)
  have mone : Rep (-1) := by simpa using rep_int (n := -1) (by norm_num)
  have hu : Unit1 l := ⟨fun x => abs_le.mpr ⟨le_fl mone (Real.neg_one_le_sin x), fl_le one (Real.sin_le_one x)⟩,
    fun x => abs_le.mpr ⟨le_fl mone (Real.neg_one_le_cos x), fl_le one (Real.cos_le_one x)⟩⟩
  obtain ⟨r, hr⟩ := loop3_exists l (1 / 2) 1 53 (fl (π * 0.5)) (fl (π * 0.25))
  have hk : Kepler3 l (1 / 2) 1 r := ⟨fun h => absurd h hM2, fun _ => hr⟩
  have hres := (run3 hl (by norm_num) (by norm_num) (by norm_num) (by linarith) hr).1
  obtain ⟨o, ho⟩ := decimal_exists (better := step1 l (1 / 2) 1) (fun s => ⟨_, Or.inl rfl⟩) 1e-12 60 1
  have hne := C186_kepler1_converges l hl (1 / 2) 1 1e-12 12 o (by norm_num) (by norm_num) (by norm_num) (by norm_num) (by norm_num) (by norm_num) ho
  obtain ⟨E, rfl⟩ := Option.ne_none_iff_exists'.mp hne
  have h1 := C186_kepler1 l hl (1 / 2) 1 1e-12 E 60 (by norm_num) (by norm_num) (by norm_num) (by norm_num) ho
  rw [abs_one] at h1
  exact ⟨l, r, E, hl, hu, ⟨1, -1, by norm_num, by norm_num, by norm_num⟩, hk, hres.trans (by norm_num), ho, h1.trans (by norm_num)⟩

end Verif.Props.Kepler64
