import Verif.Model.Refraction
import Mathlib.Analysis.Real.Pi.Bounds
import Mathlib.Tactic
/-
C108: atmospheric refraction.
-/
namespace Verif.Props

open Real Verif.Model Verif.Model.Refraction

theorem deg_pos : 0 < deg := by unfold deg; positivity

theorem one_div_tan (x : ℝ) : 1 / tan x = cos x / sin x := by rw [tan_eq_sin_div_cos, one_div_div]

/-- Difference of cotangents. -/
theorem cot_sub {a b : ℝ} (ha : sin a ≠ 0) (hb : sin b ≠ 0) : cos a / sin a - cos b / sin b = sin (b - a) / (sin a * sin b) := by
  rw [sin_sub]; field_simp

theorem cot_anti {a b : ℝ} (ha : 0 < a) (hab : a < b) (hb : b < π) : cos b / sin b < cos a / sin a := by
  have s1 : 0 < sin a := sin_pos_of_pos_of_lt_pi ha (by linarith)
  have s2 : 0 < sin b := sin_pos_of_pos_of_lt_pi (by linarith) hb
  have s3 : 0 < sin (b - a) := sin_pos_of_pos_of_lt_pi (by linarith) (by linarith)
  have := cot_sub s1.ne' s2.ne'
  have : 0 < cos a / sin a - cos b / sin b := by rw [this]; positivity
  linarith

/-- The argument of the cotangent in Bennett's and Saemundsson's formulas, in degrees. -/
noncomputable def lifted (c k u : ℝ) : ℝ := u + c / (u + k)

theorem lifted_diff {c k u v : ℝ} (hc : 0 < c) (hk : 0 < k) (h : c < k ^ 2) (hu : 0 ≤ u) (huv : u < v) :
    0 < lifted c k v - lifted c k u ∧ lifted c k v - lifted c k u < v - u := by
  have e : lifted c k v - lifted c k u = (v - u) * (1 - c / ((u + k) * (v + k))) := by
    unfold lifted
    have : u + k ≠ 0 := by positivity
    have : v + k ≠ 0 := by have : 0 < v := by linarith
                           positivity
    field_simp
    ring
  have hv : 0 < v := by linarith
  have h1 : c / ((u + k) * (v + k)) < 1 := by
    rw [div_lt_one (by positivity)]
    nlinarith
  have h0 : 0 < c / ((u + k) * (v + k)) := by positivity
  rw [e]
  constructor
  · exact mul_pos (by linarith) (by linarith)
  · nlinarith

theorem Bennett_eq (h : ℝ) : Bennett h = fromMin (cos (lifted 7.31 4.4 (h / deg) * deg) / sin (lifted 7.31 4.4 (h / deg) * deg)) := by
  unfold Bennett lifted; dsimp only
  rw [one_div_tan]
  unfold deg; congr 3 <;> ring

theorem Saemundsson_eq (h : ℝ) : Saemundsson h =
    fromMin (1.02 * (cos (lifted 10.3 5.11 (h / deg) * deg) / sin (lifted 10.3 5.11 (h / deg) * deg))) := by
  unfold Saemundsson lifted; dsimp only
  rw [← one_div_tan]
  unfold deg; rw [mul_one_div]; congr 3; ring

theorem fromMin_lt {a b : ℝ} (h : a < b) : fromMin a < fromMin b := by
  unfold fromMin; have := deg_pos; nlinarith

theorem ninety : π / 2 / deg = 90 := by unfold deg; field_simp; norm_num

theorem lifted_range {c k u : ℝ} (hc : 0 < c) (hk : 0 < k) (h1 : u ≤ 90) (h0 : 0 ≤ u) (hcu : c ≤ k * 80) :
    0 < lifted c k u * deg ∧ lifted c k u * deg < π := by
  have := deg_pos
  unfold lifted
  have p : 0 < c / (u + k) := by positivity
  have q : c / (u + k) ≤ 80 := by
    rw [div_le_iff₀ (by positivity)]; nlinarith
  constructor
  · positivity
  · have : (180 : ℝ) * deg = π := by unfold deg; field_simp
    nlinarith

theorem div_deg_mem {h : ℝ} (h0 : 0 ≤ h) (h1 : h ≤ π / 2) : 0 ≤ h / deg ∧ h / deg ≤ 90 := by
  have := deg_pos
  refine ⟨by positivity, ?_⟩
  rw [← ninety]
  exact div_le_div_of_nonneg_right h1 this.le

/-- C108: from horizon to zenith the refraction of each formula decreases strictly with the altitude. -/
theorem C108_decreasing (h h' : ℝ) (h0 : 0 ≤ h) (hlt : h < h') (h1 : h' ≤ π / 2) :
    Bennett h' < Bennett h ∧ Bennett2 h' < Bennett2 h ∧ Saemundsson h' < Saemundsson h := by
  have dp := deg_pos
  obtain ⟨a0, a1⟩ := div_deg_mem h0 (by linarith)
  obtain ⟨b0, b1⟩ := div_deg_mem (by linarith) h1
  have hab : h / deg < h' / deg := div_lt_div_of_pos_right hlt dp
  have hB : Bennett h' < Bennett h := by
    rw [Bennett_eq, Bennett_eq]
    apply fromMin_lt
    have r1 := lifted_range (c := 7.31) (k := 4.4) (by norm_num) (by norm_num) a1 a0 (by norm_num)
    have r2 := lifted_range (c := 7.31) (k := 4.4) (by norm_num) (by norm_num) b1 b0 (by norm_num)
    have hd := (lifted_diff (c := 7.31) (k := 4.4) (by norm_num) (by norm_num) (by norm_num) a0 hab).1
    exact cot_anti r1.1 (by nlinarith) r2.2
  refine ⟨hB, ?_, ?_⟩
  · unfold Bennett2
    dsimp only
    apply fromMin_lt
    set R := Bennett h / deg * 60
    set R' := Bennett h' / deg * 60
    have hR : R' < R := by
      have := div_lt_div_of_pos_right hB dp
      simp only [R, R']; linarith
    have hl := abs_le.1 (abs_sin_sub_sin_le ((14.7 * R + 13) * π / 180) ((14.7 * R' + 13) * π / 180))
    rw [show (14.7 * R + 13) * π / 180 - (14.7 * R' + 13) * π / 180 = (14.7 * π / 180) * (R - R') by ring, abs_mul,
      abs_of_pos (by positivity), abs_of_pos (by linarith : 0 < R - R')] at hl
    have := pi_lt_four
    nlinarith [hl.2]
  · rw [Saemundsson_eq, Saemundsson_eq]
    apply fromMin_lt
    have r1 := lifted_range (c := 10.3) (k := 5.11) (by norm_num) (by norm_num) a1 a0 (by norm_num)
    have r2 := lifted_range (c := 10.3) (k := 5.11) (by norm_num) (by norm_num) b1 b0 (by norm_num)
    have hd := (lifted_diff (c := 10.3) (k := 5.11) (by norm_num) (by norm_num) (by norm_num) a0 hab).1
    have := cot_anti r1.1 (by nlinarith) r2.2
    linarith

/-- C108: subtracting the refraction keeps bodies in order of altitude, and so does adding Saemundsson's. -/
theorem C108_order (h h' : ℝ) (h0 : 0 ≤ h) (hlt : h < h') (h1 : h' ≤ π / 2) :
    h - Bennett h < h' - Bennett h' ∧ h - Bennett2 h < h' - Bennett2 h' ∧ h + Saemundsson h < h' + Saemundsson h' := by
  obtain ⟨d1, d2, -⟩ := C108_decreasing h h' h0 hlt h1
  refine ⟨by linarith, by linarith, ?_⟩
  have dp := deg_pos
  obtain ⟨a0, a1⟩ := div_deg_mem h0 (by linarith)
  obtain ⟨b0, b1⟩ := div_deg_mem (by linarith) h1
  have hab : h / deg < h' / deg := div_lt_div_of_pos_right hlt dp
  rw [Saemundsson_eq, Saemundsson_eq]
  set a := lifted 10.3 5.11 (h / deg) * deg with ha
  set b := lifted 10.3 5.11 (h' / deg) * deg with hb
  obtain ⟨q1, q2⟩ := lifted_diff (c := 10.3) (k := 5.11) (by norm_num) (by norm_num) (by norm_num) a0 hab
  have r1 := lifted_range (c := 10.3) (k := 5.11) (by norm_num) (by norm_num) a1 a0 (by norm_num)
  have r2 := lifted_range (c := 10.3) (k := 5.11) (by norm_num) (by norm_num) b1 b0 (by norm_num)
  rw [← ha] at r1
  rw [← hb] at r2
  have hba : 0 < b - a := by rw [ha, hb]; nlinarith
  have hba2 : b - a < h' - h := by
    have : (h' / deg - h / deg) * deg = h' - h := by field_simp
    rw [ha, hb]; nlinarith
  have low : ∀ u, 0 ≤ u → 2 ≤ lifted 10.3 5.11 u := by
    intro u hu
    unfold lifted
    rw [← sub_nonneg, show u + 10.3 / (u + 5.11) - 2 = (u ^ 2 + 3.11 * u + 0.08) / (u + 5.11) by field_simp; ring]
    positivity
  have deg2 : 0.0349 ≤ 2 * deg := by unfold deg; linarith [pi_gt_d4]
  have sinlow : ∀ x, 2 * deg ≤ x → x ≤ π / 2 + deg → 0.0348 ≤ sin x := by
    intro x hx1 hx2
    have dle : deg ≤ 0.02 := by unfold deg; linarith [pi_lt_d4]
    have hs1 : 0.0348 ≤ sin 0.0349 := by
      have := sin_gt_sub_cube (x := 0.0349) (by norm_num)
      norm_num at this ⊢; linarith
    by_cases hx : x ≤ π / 2
    · have := sin_le_sin_of_le_of_le_pi_div_two (x := 0.0349) (y := x) (by linarith [pi_pos]) hx (by linarith)
      linarith
    · rw [← sin_pi_sub]
      have := sin_le_sin_of_le_of_le_pi_div_two (x := 0.0349) (y := π - x) (by linarith [pi_pos]) (by linarith) (by linarith [pi_gt_three])
      linarith
  have up : ∀ u, 0 ≤ u → u ≤ 90 → lifted 10.3 5.11 u ≤ 91 := by
    intro u hu hu9
    unfold lifted
    have : 0 ≤ (91 * (u + 5.11) - u * (u + 5.11) - 10.3) / (u + 5.11) := by
      apply div_nonneg _ (by positivity)
      nlinarith
    rw [← sub_nonneg, show 91 - (u + 10.3 / (u + 5.11)) = (91 * (u + 5.11) - u * (u + 5.11) - 10.3) / (u + 5.11) by field_simp; ring]
    exact this
  have n91 : (91 : ℝ) * deg = π / 2 + deg := by unfold deg; field_simp; norm_num
  have sa : 0.0348 ≤ sin a := sinlow a (by rw [ha]; nlinarith [low _ a0]) (by rw [← n91, ha]; nlinarith [up _ a0 a1])
  have sb : 0.0348 ≤ sin b := sinlow b (by rw [hb]; nlinarith [low _ b0]) (by rw [← n91, hb]; nlinarith [up _ b0 b1])
  have hcot : cos a / sin a - cos b / sin b ≤ 1000 * (b - a) := by
    rw [cot_sub (by linarith) (by linarith), div_le_iff₀ (by nlinarith)]
    have h2 := sin_le hba.le
    nlinarith [mul_le_mul sa sb (by norm_num) (by linarith : 0 ≤ sin a)]
  have dle : deg ≤ 0.02 := by unfold deg; linarith [pi_lt_d4]
  unfold fromMin
  nlinarith

/-- C108: up to altitude 89.8° all refractions are positive. -/
theorem C108_positive_partial (h : ℝ) (h0 : 0 ≤ h) (h1 : h ≤ 89.8 * deg) : 0 < Bennett h ∧ 0 < Saemundsson h := by
  have dp := deg_pos
  have u1 : h / deg ≤ 89.8 := by rw [div_le_iff₀ dp]; exact h1
  have u0 : 0 ≤ h / deg := by positivity
  set u := h / deg
  have n90 : (90 : ℝ) * deg = π / 2 := by unfold deg; field_simp; norm_num
  have pos : ∀ c k : ℝ, 0 < c → 0 < k → c ≤ 18.8 → c ≤ k * 80 → 5 < 10 * k → c ≤ k * 2.5 →
      0 < cos (lifted c k u * deg) / sin (lifted c k u * deg) := by
    intro c k hc hk hc2 hck hk2 hck2
    obtain ⟨r1, r2⟩ := lifted_range hc hk (by linarith : u ≤ 90) u0 hck
    refine div_pos (cos_pos_of_mem_Ioo ⟨by linarith, ?_⟩) (sin_pos_of_pos_of_lt_pi r1 r2)
    rw [← n90]
    apply mul_lt_mul_of_pos_right _ dp
    unfold lifted
    rw [← sub_pos, show 90 - (u + c / (u + k)) = ((90 - u) * (u + k) - c) / (u + k) by field_simp; ring]
    apply div_pos _ (by positivity)
    nlinarith
  constructor
  · rw [Bennett_eq]
    unfold fromMin
    have := pos 7.31 4.4 (by norm_num) (by norm_num) (by norm_num) (by norm_num) (by norm_num) (by norm_num)
    positivity
  · rw [Saemundsson_eq]
    unfold fromMin
    have := pos 10.3 5.11 (by norm_num) (by norm_num) (by norm_num) (by norm_num) (by norm_num) (by norm_num)
    positivity

/-- C108, violation: at the zenith the refractions are negative. -/
theorem C108_zenith_violation : Bennett (π / 2) < 0 ∧ Saemundsson (π / 2) < 0 := by
  have dp := deg_pos
  have n90 : (90 : ℝ) * deg = π / 2 := by unfold deg; field_simp; norm_num
  have neg : ∀ c k : ℝ, 0 < c → 0 < k → c ≤ k * 80 → cos (lifted c k 90 * deg) / sin (lifted c k 90 * deg) < 0 := by
    intro c k hc hk hck
    obtain ⟨r1, r2⟩ := lifted_range hc hk (le_refl (90 : ℝ)) (by norm_num) hck
    refine div_neg_of_neg_of_pos (cos_neg_of_pi_div_two_lt_of_lt ?_ (by linarith [pi_pos])) (sin_pos_of_pos_of_lt_pi r1 r2)
    rw [← n90]
    apply mul_lt_mul_of_pos_right _ dp
    unfold lifted
    have : 0 < c / (90 + k) := by positivity
    linarith
  constructor
  · rw [Bennett_eq, ninety]
    unfold fromMin
    have := neg 7.31 4.4 (by norm_num) (by norm_num) (by norm_num)
    nlinarith
  · rw [Saemundsson_eq, ninety]
    unfold fromMin
    have := neg 10.3 5.11 (by norm_num) (by norm_num) (by norm_num)
    nlinarith

/-- C108: the formulas for more than 15° give zero at the zenith, are positive below it and decrease with the altitude. -/
theorem C108_gt15 (h h' : ℝ) (h0 : π / 12 ≤ h) (hlt : h < h') (h1 : h' ≤ π / 2) :
    Gt15True h' < Gt15True h ∧ Gt15Apparent h' < Gt15Apparent h ∧ Gt15True (π / 2) = 0 ∧ Gt15Apparent (π / 2) = 0 ∧
    0 < Gt15True h ∧ 0 < Gt15Apparent h := by
  have tpos : 0 ≤ tan (π / 2 - h') := tan_nonneg_of_nonneg_of_le_pi_div_two (by linarith) (by linarith [pi_pos])
  have tlt : tan (π / 2 - h') < tan (π / 2 - h) :=
    tan_lt_tan_of_lt_of_lt_pi_div_two (by linarith [pi_pos]) (by linarith [pi_pos]) (by linarith)
  have t4 : tan (π / 2 - h) ≤ 4 := by
    rw [tan_pi_div_two_sub]
    have hsin : 1 / 4 ≤ sin h := by
      have e : sin (π / 12) ≤ sin h := sin_le_sin_of_le_of_le_pi_div_two (by linarith [pi_pos]) (by linarith) h0
      have g := sin_gt_sub_cube (x := π / 12) (by positivity)
      have p1 := pi_gt_d4
      have p2 := pi_lt_d4
      have : (π / 12) ^ 3 ≤ (3.1416 / 12) ^ 3 := by gcongr
      norm_num at this
      linarith
    have ht : 0 < tan h := tan_pos_of_pos_of_lt_pi_div_two (by linarith [pi_pos]) (by linarith)
    have hc : 0 ≤ cos h := cos_nonneg_of_mem_Icc ⟨by linarith [pi_pos], by linarith⟩
    rw [tan_eq_sin_div_cos, inv_div, div_le_iff₀ (by linarith)]
    linarith [cos_le_one h]
  have dp := deg_pos
  have mono : ∀ a b : ℝ, 0 < a → 0 ≤ b → 48 * b < a → ∀ t t' : ℝ, 0 ≤ t' → t' < t → t ≤ 4 →
      fromSec a * t' - fromSec b * (t' * t' * t') < fromSec a * t - fromSec b * (t * t * t) := by
    intro a b ha hb hab t t' ht' htt ht
    unfold fromSec
    have e : a / 3600 * deg * t - b / 3600 * deg * (t * t * t) - (a / 3600 * deg * t' - b / 3600 * deg * (t' * t' * t')) =
        deg / 3600 * ((t - t') * (a - b * (t * t + t * t' + t' * t'))) := by ring
    have h3 : t * t + t * t' + t' * t' ≤ 48 := by nlinarith
    have : 0 < a - b * (t * t + t * t' + t' * t') := by nlinarith
    have : 0 < deg / 3600 * ((t - t') * (a - b * (t * t + t * t' + t' * t'))) := by
      apply mul_pos (by positivity) (mul_pos (by linarith) this)
    linarith
  unfold Gt15True Gt15Apparent
  dsimp only
  have m1 := mono 58.294 0.0668 (by norm_num) (by norm_num) (by norm_num)
  have m2 := mono 58.276 0.0824 (by norm_num) (by norm_num) (by norm_num)
  refine ⟨m1 _ _ tpos tlt t4, m2 _ _ tpos tlt t4, by simp, by simp, ?_, ?_⟩
  · have := m1 (tan (π / 2 - h)) 0 le_rfl (by linarith) t4
    simpa using this
  · have := m2 (tan (π / 2 - h)) 0 le_rfl (by linarith) t4
    simpa using this

/-- C108: altitudes 30° and 45° meet the hypotheses. -/
example : (0 : ℝ) ≤ π / 6 ∧ π / 6 < π / 4 ∧ π / 4 ≤ π / 2 ∧ π / 12 ≤ π / 6 := by
  refine ⟨?_, ?_, ?_, ?_⟩ <;> linarith [pi_pos]

end Verif.Props
