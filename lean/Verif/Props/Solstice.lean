import Verif.Model.Solstice
import Verif.Lemmas.Series
/-
C66: the seasons in order.
-/
namespace Verif.Props

open Real Verif.Model Verif.Lemmas

set_option maxRecDepth 8000 in
/-- The correction to the mean time is less than 30 minutes. -/
theorem solstice_corr (y : ℤ) (c : List ℝ) : |Solstice.eq y c - hornerR ((y : ℝ) * 0.001) c| ≤ 0.0206 := by
  unfold Solstice.eq
  dsimp only
  set T := J2000Century (hornerR ((y : ℝ) * 0.001) c)
  set W := 35999.373 * π / 180 * T - 2.47 * π / 180
  have hS := series_cos_abs (Solstice.terms.map fun t => (t.1, (t.2.1 + t.2.2 * T) * π / 180))
  set S := series cos (Solstice.terms.map fun t => (t.1, (t.2.1 + t.2.2 * T) * π / 180))
  have hsum : ((Solstice.terms.map fun t => (t.1, (t.2.1 + t.2.2 * T) * π / 180)).map fun t => |t.1|).sum = 1978 := by
    rw [List.map_map]
    unfold Solstice.terms
    simp only [List.map_cons, List.map_nil, List.sum_cons, List.sum_nil, Function.comp_apply]
    norm_num
  rw [hsum] at hS
  have hD : 0.9659 ≤ 1 + 0.0334 * cos W + 0.0007 * cos (2 * W) := by
    linarith [neg_one_le_cos W, neg_one_le_cos (2 * W)]
  rw [add_sub_cancel_left, abs_div, abs_of_pos (by linarith : 0 < 1 + 0.0334 * cos W + 0.0007 * cos (2 * W)), div_le_iff₀ (by linarith),
    abs_mul, abs_of_pos (by norm_num : (0 : ℝ) < 0.00001)]
  nlinarith

/-- Powers of a number of [-1, 1]. -/
theorem pow_bounds {t : ℝ} (h : |t| ≤ 1) : -1 ≤ t ∧ t ≤ 1 ∧ 0 ≤ t ^ 2 ∧ t ^ 2 ≤ 1 ∧ -1 ≤ t ^ 3 ∧ t ^ 3 ≤ 1 ∧ 0 ≤ t ^ 4 ∧ t ^ 4 ≤ 1 := by
  obtain ⟨h1, h2⟩ := abs_le.1 h
  have h3 : t ^ 2 ≤ 1 := by nlinarith
  refine ⟨h1, h2, sq_nonneg _, h3, ?_, ?_, by positivity, ?_⟩
  · nlinarith [sq_nonneg t]
  · nlinarith [sq_nonneg t]
  · nlinarith [sq_nonneg t]

theorem horner5 (t a b c d e : ℝ) : hornerR t [a, b, c, d, e] = a + b * t + c * t ^ 2 + d * t ^ 3 + e * t ^ 4 := by
  unfold hornerR
  simp only [List.foldr_cons, List.foldr_nil]
  ring

/-- The mean times, as polynomials of the time in millennia. -/
theorem season_poly (c : List ℝ) (y : ℤ) (lo hi : ℝ) (h : lo ≤ hornerR ((y : ℝ) * 0.001) c ∧ hornerR ((y : ℝ) * 0.001) c ≤ hi) :
    lo - 0.0206 ≤ Solstice.eq y c ∧ Solstice.eq y c ≤ hi + 0.0206 := by
  have := abs_le.1 (solstice_corr y c)
  constructor <;> linarith

set_option maxHeartbeats 4000000 in
/-- C66: the four seasons follow each other at intervals of 88 to 95 days, for the years for which the functions are said to be valid,
and each returns after a year of 365.15 to 365.33 days; also where the table changes, between 999 and 1000. -/
theorem C66_lengths (y : ℤ) (h0 : -1000 ≤ y) (h1 : y ≤ 2999) :
    (88 < Solstice.June y - Solstice.March y ∧ Solstice.June y - Solstice.March y < 95) ∧
    (88 < Solstice.September y - Solstice.June y ∧ Solstice.September y - Solstice.June y < 95) ∧
    (88 < Solstice.December y - Solstice.September y ∧ Solstice.December y - Solstice.September y < 95) ∧
    (88 < Solstice.March (y + 1) - Solstice.December y ∧ Solstice.March (y + 1) - Solstice.December y < 95) ∧
    (365.15 < Solstice.March (y + 1) - Solstice.March y ∧ Solstice.March (y + 1) - Solstice.March y < 365.33) ∧
    (365.15 < Solstice.June (y + 1) - Solstice.June y ∧ Solstice.June (y + 1) - Solstice.June y < 365.33) ∧
    (365.15 < Solstice.September (y + 1) - Solstice.September y ∧ Solstice.September (y + 1) - Solstice.September y < 365.33) ∧
    (365.15 < Solstice.December (y + 1) - Solstice.December y ∧ Solstice.December (y + 1) - Solstice.December y < 365.33) := by
  unfold Solstice.March Solstice.June Solstice.September Solstice.December
  have hpow : ∀ k : ℤ, -1000 ≤ k → k ≤ 1000 → |(k : ℝ) * 0.001| ≤ 1 := by
    intro k a b
    have a' : (-1000 : ℝ) ≤ k := by exact_mod_cast a
    have b' : (k : ℝ) ≤ 1000 := by exact_mod_cast b
    rw [abs_le]; constructor <;> linarith
  by_cases hy : y < 999
  · -- both years in the first table
    rw [if_pos (by omega), if_pos (by omega), if_pos (by omega), if_pos (by omega), if_pos (by omega), if_pos (by omega),
      if_pos (by omega), if_pos (by omega)]
    have c1 := solstice_corr (y) Solstice.mc0
    have c2 := solstice_corr (y) Solstice.jc0
    have c3 := solstice_corr (y) Solstice.sc0
    have c4 := solstice_corr (y) Solstice.dc0
    have d1 := solstice_corr (y + 1) Solstice.mc0
    have d2 := solstice_corr (y + 1) Solstice.jc0
    have d3 := solstice_corr (y + 1) Solstice.sc0
    have d4 := solstice_corr (y + 1) Solstice.dc0
    generalize Solstice.eq (y) Solstice.mc0 = xma at *
    generalize Solstice.eq (y) Solstice.jc0 = xja at *
    generalize Solstice.eq (y) Solstice.sc0 = xsa at *
    generalize Solstice.eq (y) Solstice.dc0 = xda at *
    generalize Solstice.eq (y + 1) Solstice.mc0 = xmb at *
    generalize Solstice.eq (y + 1) Solstice.jc0 = xjb at *
    generalize Solstice.eq (y + 1) Solstice.sc0 = xsb at *
    generalize Solstice.eq (y + 1) Solstice.dc0 = xdb at *
    have p1 := pow_bounds (hpow y h0 (by omega))
    have p2 := pow_bounds (hpow (y + 1) (by omega) (by omega))
    have et : (((y + 1 : ℤ) : ℝ) * 0.001) = (y : ℝ) * 0.001 + 0.001 := by push_cast; ring
    rw [et] at d1 d2 d3 d4
    simp only [Solstice.mc0, Solstice.jc0, Solstice.sc0, Solstice.dc0, horner5] at c1 c2 c3 c4 d1 d2 d3 d4
    set t := (y : ℝ) * 0.001
    simp only [abs_le] at c1 c2 c3 c4 d1 d2 d3 d4
    have q2 : (t + 0.001) ^ 2 = t ^ 2 + 0.002 * t + 0.000001 := by ring
    have q3 : (t + 0.001) ^ 3 = t ^ 3 + 0.003 * t ^ 2 + 0.000003 * t + 0.000000001 := by ring
    have q4 : (t + 0.001) ^ 4 = t ^ 4 + 0.004 * t ^ 3 + 0.000006 * t ^ 2 + 0.000000004 * t + 0.000000000001 := by ring
    rw [q2, q3, q4] at d1 d2 d3 d4
    obtain ⟨a1, a2, a3, a4, a5, a6, a7, a8⟩ := p1
    clear p2 q2 q3 q4 et hpow
    generalize t ^ 2 = t2 at *
    generalize t ^ 3 = t3 at *
    generalize t ^ 4 = t4 at *
    clear_value t
    refine ⟨⟨?_, ?_⟩, ⟨?_, ?_⟩, ⟨?_, ?_⟩, ⟨?_, ?_⟩, ⟨?_, ?_⟩, ⟨?_, ?_⟩, ⟨?_, ?_⟩, ?_, ?_⟩
    · linarith only [c2.1, c2.2, c1.1, c1.2, a1, a2, a3, a4, a5, a6, a7, a8]
    · linarith only [c2.1, c2.2, c1.1, c1.2, a1, a2, a3, a4, a5, a6, a7, a8]
    · linarith only [c3.1, c3.2, c2.1, c2.2, a1, a2, a3, a4, a5, a6, a7, a8]
    · linarith only [c3.1, c3.2, c2.1, c2.2, a1, a2, a3, a4, a5, a6, a7, a8]
    · linarith only [c4.1, c4.2, c3.1, c3.2, a1, a2, a3, a4, a5, a6, a7, a8]
    · linarith only [c4.1, c4.2, c3.1, c3.2, a1, a2, a3, a4, a5, a6, a7, a8]
    · linarith only [d1.1, d1.2, c4.1, c4.2, a1, a2, a3, a4, a5, a6, a7, a8]
    · linarith only [d1.1, d1.2, c4.1, c4.2, a1, a2, a3, a4, a5, a6, a7, a8]
    · linarith only [d1.1, d1.2, c1.1, c1.2, a1, a2, a3, a4, a5, a6, a7, a8]
    · linarith only [d1.1, d1.2, c1.1, c1.2, a1, a2, a3, a4, a5, a6, a7, a8]
    · linarith only [d2.1, d2.2, c2.1, c2.2, a1, a2, a3, a4, a5, a6, a7, a8]
    · linarith only [d2.1, d2.2, c2.1, c2.2, a1, a2, a3, a4, a5, a6, a7, a8]
    · linarith only [d3.1, d3.2, c3.1, c3.2, a1, a2, a3, a4, a5, a6, a7, a8]
    · linarith only [d3.1, d3.2, c3.1, c3.2, a1, a2, a3, a4, a5, a6, a7, a8]
    · linarith only [d4.1, d4.2, c4.1, c4.2, a1, a2, a3, a4, a5, a6, a7, a8]
    · linarith only [d4.1, d4.2, c4.1, c4.2, a1, a2, a3, a4, a5, a6, a7, a8]
  · by_cases hy2 : y = 999
    · subst hy2
      rw [if_pos (by omega), if_pos (by omega), if_pos (by omega), if_pos (by omega), if_neg (by omega), if_neg (by omega),
        if_neg (by omega), if_neg (by omega)]
      have c1 := solstice_corr (999) Solstice.mc0
      have c2 := solstice_corr (999) Solstice.jc0
      have c3 := solstice_corr (999) Solstice.sc0
      have c4 := solstice_corr (999) Solstice.dc0
      have d1 := solstice_corr (999 + 1 - 2000) Solstice.mc2
      have d2 := solstice_corr (999 + 1 - 2000) Solstice.jc2
      have d3 := solstice_corr (999 + 1 - 2000) Solstice.sc2
      have d4 := solstice_corr (999 + 1 - 2000) Solstice.dc2
      generalize Solstice.eq (999) Solstice.mc0 = xma at *
      generalize Solstice.eq (999) Solstice.jc0 = xja at *
      generalize Solstice.eq (999) Solstice.sc0 = xsa at *
      generalize Solstice.eq (999) Solstice.dc0 = xda at *
      generalize Solstice.eq (999 + 1 - 2000) Solstice.mc2 = xmb at *
      generalize Solstice.eq (999 + 1 - 2000) Solstice.jc2 = xjb at *
      generalize Solstice.eq (999 + 1 - 2000) Solstice.sc2 = xsb at *
      generalize Solstice.eq (999 + 1 - 2000) Solstice.dc2 = xdb at *
      simp only [Solstice.mc0, Solstice.jc0, Solstice.sc0, Solstice.dc0, Solstice.mc2, Solstice.jc2, Solstice.sc2, Solstice.dc2,
        horner5] at c1 c2 c3 c4 d1 d2 d3 d4
      norm_num at c1 c2 c3 c4 d1 d2 d3 d4 ⊢
      simp only [abs_le] at c1 c2 c3 c4 d1 d2 d3 d4
      refine ⟨⟨?_, ?_⟩, ⟨?_, ?_⟩, ⟨?_, ?_⟩, ⟨?_, ?_⟩, ⟨?_, ?_⟩, ⟨?_, ?_⟩, ⟨?_, ?_⟩, ?_, ?_⟩
      · linarith only [c2.1, c2.2, c1.1, c1.2]
      · linarith only [c2.1, c2.2, c1.1, c1.2]
      · linarith only [c3.1, c3.2, c2.1, c2.2]
      · linarith only [c3.1, c3.2, c2.1, c2.2]
      · linarith only [c4.1, c4.2, c3.1, c3.2]
      · linarith only [c4.1, c4.2, c3.1, c3.2]
      · linarith only [d1.1, d1.2, c4.1, c4.2]
      · linarith only [d1.1, d1.2, c4.1, c4.2]
      · linarith only [d1.1, d1.2, c1.1, c1.2]
      · linarith only [d1.1, d1.2, c1.1, c1.2]
      · linarith only [d2.1, d2.2, c2.1, c2.2]
      · linarith only [d2.1, d2.2, c2.1, c2.2]
      · linarith only [d3.1, d3.2, c3.1, c3.2]
      · linarith only [d3.1, d3.2, c3.1, c3.2]
      · linarith only [d4.1, d4.2, c4.1, c4.2]
      · linarith only [d4.1, d4.2, c4.1, c4.2]
    · rw [if_neg (by omega), if_neg (by omega), if_neg (by omega), if_neg (by omega), if_neg (by omega), if_neg (by omega),
        if_neg (by omega), if_neg (by omega)]
      have c1 := solstice_corr (y - 2000) Solstice.mc2
      have c2 := solstice_corr (y - 2000) Solstice.jc2
      have c3 := solstice_corr (y - 2000) Solstice.sc2
      have c4 := solstice_corr (y - 2000) Solstice.dc2
      have d1 := solstice_corr (y + 1 - 2000) Solstice.mc2
      have d2 := solstice_corr (y + 1 - 2000) Solstice.jc2
      have d3 := solstice_corr (y + 1 - 2000) Solstice.sc2
      have d4 := solstice_corr (y + 1 - 2000) Solstice.dc2
      generalize Solstice.eq (y - 2000) Solstice.mc2 = xma at *
      generalize Solstice.eq (y - 2000) Solstice.jc2 = xja at *
      generalize Solstice.eq (y - 2000) Solstice.sc2 = xsa at *
      generalize Solstice.eq (y - 2000) Solstice.dc2 = xda at *
      generalize Solstice.eq (y + 1 - 2000) Solstice.mc2 = xmb at *
      generalize Solstice.eq (y + 1 - 2000) Solstice.jc2 = xjb at *
      generalize Solstice.eq (y + 1 - 2000) Solstice.sc2 = xsb at *
      generalize Solstice.eq (y + 1 - 2000) Solstice.dc2 = xdb at *
      have p1 := pow_bounds (hpow (y - 2000) (by omega) (by omega))
      have p2 := pow_bounds (hpow (y + 1 - 2000) (by omega) (by omega))
      have et : (((y + 1 - 2000 : ℤ) : ℝ) * 0.001) = ((y - 2000 : ℤ) : ℝ) * 0.001 + 0.001 := by push_cast; ring
      rw [et] at d1 d2 d3 d4
      simp only [Solstice.mc2, Solstice.jc2, Solstice.sc2, Solstice.dc2, horner5] at c1 c2 c3 c4 d1 d2 d3 d4
      set t := ((y - 2000 : ℤ) : ℝ) * 0.001
      simp only [abs_le] at c1 c2 c3 c4 d1 d2 d3 d4
      have q2 : (t + 0.001) ^ 2 = t ^ 2 + 0.002 * t + 0.000001 := by ring
      have q3 : (t + 0.001) ^ 3 = t ^ 3 + 0.003 * t ^ 2 + 0.000003 * t + 0.000000001 := by ring
      have q4 : (t + 0.001) ^ 4 = t ^ 4 + 0.004 * t ^ 3 + 0.000006 * t ^ 2 + 0.000000004 * t + 0.000000000001 := by ring
      rw [q2, q3, q4] at d1 d2 d3 d4
      obtain ⟨a1, a2, a3, a4, a5, a6, a7, a8⟩ := p1
      clear p2 q2 q3 q4 et hpow
      generalize t ^ 2 = t2 at *
      generalize t ^ 3 = t3 at *
      generalize t ^ 4 = t4 at *
      clear_value t
      refine ⟨⟨?_, ?_⟩, ⟨?_, ?_⟩, ⟨?_, ?_⟩, ⟨?_, ?_⟩, ⟨?_, ?_⟩, ⟨?_, ?_⟩, ⟨?_, ?_⟩, ?_, ?_⟩
      · linarith only [c2.1, c2.2, c1.1, c1.2, a1, a2, a3, a4, a5, a6, a7, a8]
      · linarith only [c2.1, c2.2, c1.1, c1.2, a1, a2, a3, a4, a5, a6, a7, a8]
      · linarith only [c3.1, c3.2, c2.1, c2.2, a1, a2, a3, a4, a5, a6, a7, a8]
      · linarith only [c3.1, c3.2, c2.1, c2.2, a1, a2, a3, a4, a5, a6, a7, a8]
      · linarith only [c4.1, c4.2, c3.1, c3.2, a1, a2, a3, a4, a5, a6, a7, a8]
      · linarith only [c4.1, c4.2, c3.1, c3.2, a1, a2, a3, a4, a5, a6, a7, a8]
      · linarith only [d1.1, d1.2, c4.1, c4.2, a1, a2, a3, a4, a5, a6, a7, a8]
      · linarith only [d1.1, d1.2, c4.1, c4.2, a1, a2, a3, a4, a5, a6, a7, a8]
      · linarith only [d1.1, d1.2, c1.1, c1.2, a1, a2, a3, a4, a5, a6, a7, a8]
      · linarith only [d1.1, d1.2, c1.1, c1.2, a1, a2, a3, a4, a5, a6, a7, a8]
      · linarith only [d2.1, d2.2, c2.1, c2.2, a1, a2, a3, a4, a5, a6, a7, a8]
      · linarith only [d2.1, d2.2, c2.1, c2.2, a1, a2, a3, a4, a5, a6, a7, a8]
      · linarith only [d3.1, d3.2, c3.1, c3.2, a1, a2, a3, a4, a5, a6, a7, a8]
      · linarith only [d3.1, d3.2, c3.1, c3.2, a1, a2, a3, a4, a5, a6, a7, a8]
      · linarith only [d4.1, d4.2, c4.1, c4.2, a1, a2, a3, a4, a5, a6, a7, a8]
      · linarith only [d4.1, d4.2, c4.1, c4.2, a1, a2, a3, a4, a5, a6, a7, a8]

/-- C66: the seasons are in order. -/
theorem C66_order (y : ℤ) (h0 : -1000 ≤ y) (h1 : y ≤ 2999) :
    Solstice.March y < Solstice.June y ∧ Solstice.June y < Solstice.September y ∧ Solstice.September y < Solstice.December y ∧
      Solstice.December y < Solstice.March (y + 1) := by
  obtain ⟨⟨a, _⟩, ⟨b, _⟩, ⟨c, _⟩, ⟨d, _⟩, _⟩ := C66_lengths y h0 h1
  refine ⟨?_, ?_, ?_, ?_⟩ <;> linarith

end Verif.Props
