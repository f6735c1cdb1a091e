import Verif.Lemmas.Interp
import Verif.Spec.Interp
import Mathlib.Tactic.IntervalCases

/-! Properties C18, C20, C21, C24, C27, C28: Horner and the tabular interpolators. -/

namespace Verif.Props

open Verif.Go Verif.Model Verif.Model.Interp Verif.Spec Verif.Lemmas Polynomial

/-- C18.  Horner evaluates the polynomial; it panics exactly on the empty list. -/
theorem C18_horner (x : ℝ) (c : List ℝ) :
    (c ≠ [] → Horner x c = some (∑ i ∈ Finset.range c.length, c.getD i 0 * x ^ i)) ∧
    (Horner x c = none ↔ c = []) := by
  refine ⟨horner_sum x c, ⟨fun h => ?_, fun h => by subst h; rfl⟩⟩
  by_contra hc
  rw [horner_sum x c hc] at h
  cases h

example : Horner (2 : ℚ) [1, 2, 3] = some 17 := by decide +kernel

/-- C20.  The constructor fails exactly for a wrong number of rows or an empty x range. -/
theorem C20_newLen3_errors (x1 x3 : ℝ) (y : List ℝ) :
    ((∃ d, NewLen3 x1 x3 y = .ok d) ↔ y.length = 3 ∧ x1 ≠ x3) ∧
    (NewLen3 x1 x3 y = .error .Not3 ↔ y.length ≠ 3) ∧
    (NewLen3 x1 x3 y = .error .NoXRange ↔ y.length = 3 ∧ x1 = x3) := by
  unfold NewLen3
  split
  · next y0 y1 y2 =>
    by_cases h : x3 = x1
    · simp [h]
    · simp [h, Ne.symm h]
  · next hne =>
    have hl : y.length ≠ 3 := by
      intro h
      match y, h with
      | [a, b, c], _ => exact hne a b c rfl
    simp [hl]

/-- C20.  A Len3 interpolates by a polynomial of degree at most 2 through its three points … -/
theorem C20_len3_polynomial (x1 x3 : ℝ) (y : List ℝ) (d : Len3) (h : NewLen3 x1 x3 y = .ok d) :
    PolyFun 2 d.InterpolateX ∧ Through x1 x3 y d.InterpolateX := by
  obtain ⟨y0, y1, y2, rfl, hx, rfl⟩ := newLen3_ok h
  have hd : x3 - x1 ≠ 0 := sub_ne_zero.2 hx
  constructor
  · refine ⟨C y1 + (C (2 / (x3 - x1)) * X + C (-(x3 + x1) / (x3 - x1))) * C 0.5 *
      (C (y1 - y0 + (y2 - y1)) + (C (2 / (x3 - x1)) * X + C (-(x3 + x1) / (x3 - x1))) * C (y2 - y1 - (y1 - y0))), ?_, ?_⟩
    · compute_degree
    · intro x
      simp only [Len3.InterpolateX, Len3.InterpolateN, Len3.y1, eval_add, eval_mul, eval_C, eval_X]
      have : (2 * x - (x3 + x1)) / (x3 - x1) = 2 / (x3 - x1) * x + -(x3 + x1) / (x3 - x1) := by ring
      rw [this]; simp
  · intro i hi
    simp only [List.length_cons, List.length_nil] at hi
    simp only [Len3.InterpolateX, Len3.InterpolateN, Len3.y1]
    have hn : ∀ t : ℝ, (2 * (x1 + t * ((x3 - x1) / 2)) - (x3 + x1)) / (x3 - x1) = t - 1 := by
      intro t; field_simp; ring
    have h3 : (([y0, y1, y2].length : ℝ) - 1) = 2 := by norm_num
    rw [h3, hn]
    interval_cases i <;> norm_num <;> ring

/-- C20.  … and it is the only one. -/
theorem C20_len3_unique (x1 x3 : ℝ) (y : List ℝ) (d : Len3) (h : NewLen3 x1 x3 y = .ok d)
    (g : ℝ → ℝ) (hg : PolyFun 2 g) (ht : Through x1 x3 y g) (x : ℝ) : d.InterpolateX x = g x := by
  obtain ⟨y0, y1, y2, rfl, hx, rfl⟩ := newLen3_ok h
  have hd : x3 - x1 ≠ 0 := sub_ne_zero.2 hx
  obtain ⟨p, hp, hgp⟩ := hg
  have h0 := ht 0 (by simp)
  have h1 := ht 1 (by simp)
  have h2 := ht 2 (by simp)
  simp only [hgp, eval_natDegree_le p 2 hp, Finset.sum_range_succ, Finset.sum_range_zero] at h0 h1 h2 ⊢
  norm_num at h0 h1 h2
  simp only [Len3.InterpolateX, Len3.InterpolateN, Len3.y1, List.getD_cons_succ, List.getD_cons_zero]
  rw [← h0, ← h1, ← h2]
  field_simp
  ring

/-- C20.  The strict form accepts exactly the closed interval between x1 and x3, in either order, and
then agrees with the unrestricted form. -/
theorem C20_len3_strict (x1 x3 : ℝ) (y : List ℝ) (d : Len3) (h : NewLen3 x1 x3 y = .ok d) (x : ℝ) :
    (min x1 x3 ≤ x ∧ x ≤ max x1 x3 → d.InterpolateXStrict x = .ok (d.InterpolateX x)) ∧
    (¬ (min x1 x3 ≤ x ∧ x ≤ max x1 x3) → d.InterpolateXStrict x = .error .XOutOfRange) := by
  obtain ⟨y0, y1, y2, rfl, hx, rfl⟩ := newLen3_ok h
  have key : ((2 * x - (x3 + x1)) / (x3 - x1) < -1 ∨ (2 * x - (x3 + x1)) / (x3 - x1) > 1) ↔
      ¬ (min x1 x3 ≤ x ∧ x ≤ max x1 x3) := by
    rcases lt_or_gt_of_ne hx with hlt | hgt
    · have hn : x3 - x1 < 0 := by linarith
      rw [gt_iff_lt, lt_div_iff_of_neg hn, div_lt_iff_of_neg hn, min_eq_right hlt.le, max_eq_left hlt.le,
        not_and_or, not_le, not_le]
      constructor
      · rintro (h | h); right; linarith; left; linarith
      · rintro (h | h); right; linarith; left; linarith
    · have hn : 0 < x3 - x1 := by linarith
      have hgt : x1 < x3 := hgt
      rw [gt_iff_lt, lt_div_iff₀ hn, div_lt_iff₀ hn, min_eq_left hgt.le, max_eq_right hgt.le,
        not_and_or, not_le, not_le]
      constructor
      · rintro (h | h); left; linarith; right; linarith
      · rintro (h | h); left; linarith; right; linarith
  simp only [Len3.InterpolateXStrict, Len3.InterpolateNStrict, Len3.InterpolateX]
  constructor
  · intro hin
    rw [if_neg (fun hc => (key.1 hc) hin)]; rfl
  · intro hout
    rw [if_pos (key.2 hout)]; rfl

example : ∃ d, NewLen3 5 1 [1, 4, 9] = .ok d := by
  simp [NewLen3]

/-- C21.  When `Extremum` succeeds the returned point lies in the table, on the interpolating
quadratic, and is a strict global extremum of it. -/
theorem C21_extremum_sound (x1 x3 : ℝ) (y : List ℝ) (d : Len3) (h : NewLen3 x1 x3 y = .ok d)
    (x v : ℝ) (he : d.Extremum = .ok (x, v)) :
    min x1 x3 ≤ x ∧ x ≤ max x1 x3 ∧ d.InterpolateX x = v ∧
    ((∀ t, t ≠ x → d.InterpolateX t < v) ∨ (∀ t, t ≠ x → v < d.InterpolateX t)) := by
  obtain ⟨y0, y1, y2, rfl, hx, rfl⟩ := newLen3_ok h
  have hd : x3 - x1 ≠ 0 := sub_ne_zero.2 hx
  obtain ⟨c, hc⟩ : ∃ c, c = y2 - y1 - (y1 - y0) := ⟨_, rfl⟩
  obtain ⟨s, hs⟩ : ∃ s, s = y1 - y0 + (y2 - y1) := ⟨_, rfl⟩
  simp only [Len3.Extremum, Len3.InterpolateX, Len3.InterpolateN, Len3.y1, ← hc, ← hs,
    List.getD_cons_succ, List.getD_cons_zero] at he ⊢
  split_ifs at he with h1 h2
  obtain ⟨rfl, rfl⟩ := Prod.mk.inj (by injection he)
  push Not at h2
  obtain ⟨ha, hb⟩ := h2
  have hn : ∀ t, (2 * t - (x3 + x1)) / (x3 - x1) = s / (-2 * c) +
      2 * (t - 0.5 * (x3 + x1 + (x3 - x1) * (s / (-2 * c)))) / (x3 - x1) := by
    intro t; field_simp; ring
  have hval : ∀ n : ℝ, y1 + n * 0.5 * (s + n * c) - (y1 - s * s / (8 * c)) = c / 2 * (n - s / (-2 * c)) ^ 2 := by
    intro n; field_simp; ring
  refine ⟨?_, ?_, ?_, ?_⟩
  · rcases lt_or_gt_of_ne hx with hlt | hgt
    · rw [min_eq_right hlt.le]; nlinarith
    · rw [min_eq_left (le_of_lt hgt)]; nlinarith [show x1 < x3 from hgt]
  · rcases lt_or_gt_of_ne hx with hlt | hgt
    · rw [max_eq_left hlt.le]; nlinarith
    · rw [max_eq_right (le_of_lt hgt)]; nlinarith [show x1 < x3 from hgt]
  · have := hval ((2 * (0.5 * (x3 + x1 + (x3 - x1) * (s / (-2 * c)))) - (x3 + x1)) / (x3 - x1))
    rw [hn] at this ⊢
    simp only [sub_self, mul_zero, zero_div, add_zero] at this ⊢
    nlinarith
  · rcases lt_or_gt_of_ne h1 with hlt | hgt
    · left
      intro t ht
      have := hval ((2 * t - (x3 + x1)) / (x3 - x1))
      have hne : (2 * t - (x3 + x1)) / (x3 - x1) - s / (-2 * c) ≠ 0 := by
        rw [hn]; simp only [add_sub_cancel_left]
        exact div_ne_zero (mul_ne_zero two_ne_zero (sub_ne_zero.2 ht)) hd
      have hsq := pow_pos (abs_pos.2 hne) 2
      rw [sq_abs] at hsq
      nlinarith
    · right
      intro t ht
      have := hval ((2 * t - (x3 + x1)) / (x3 - x1))
      have hne : (2 * t - (x3 + x1)) / (x3 - x1) - s / (-2 * c) ≠ 0 := by
        rw [hn]; simp only [add_sub_cancel_left]
        exact div_ne_zero (mul_ne_zero two_ne_zero (sub_ne_zero.2 ht)) hd
      have hsq := pow_pos (abs_pos.2 hne) 2
      rw [sq_abs] at hsq
      have hgt' : 0 < c := hgt
      nlinarith

/-- C21.  Completeness: if the interpolating quadratic has a strict global extremum within the table,
`Extremum` succeeds with it. -/
theorem C21_extremum_complete (x1 x3 : ℝ) (y : List ℝ) (d : Len3) (h : NewLen3 x1 x3 y = .ok d)
    (x : ℝ) (hr : min x1 x3 ≤ x ∧ x ≤ max x1 x3)
    (hext : (∀ t, t ≠ x → d.InterpolateX t < d.InterpolateX x) ∨ (∀ t, t ≠ x → d.InterpolateX x < d.InterpolateX t)) :
    d.Extremum = .ok (x, d.InterpolateX x) := by
  have hd0 := h
  obtain ⟨y0, y1, y2, rfl, hx, rfl⟩ := newLen3_ok h
  have hd : x3 - x1 ≠ 0 := sub_ne_zero.2 hx
  obtain ⟨c, hc⟩ : ∃ c, c = y2 - y1 - (y1 - y0) := ⟨_, rfl⟩
  obtain ⟨s, hs⟩ : ∃ s, s = y1 - y0 + (y2 - y1) := ⟨_, rfl⟩
  -- value as a function of n
  have hX : ∀ n : ℝ, (⟨x1, x3, [y0, y1, y2], y1 - y0, y2 - y1, y2 - y1 - (y1 - y0), y1 - y0 + (y2 - y1), x3 + x1, x3 - x1⟩ : Len3).InterpolateX
      (0.5 * (x3 + x1 + (x3 - x1) * n)) = y1 + n * 0.5 * (s + n * c) := by
    intro n
    simp only [Len3.InterpolateX, Len3.InterpolateN, Len3.y1, ← hc, ← hs, List.getD_cons_succ, List.getD_cons_zero]
    have : (2 * (0.5 * (x3 + x1 + (x3 - x1) * n)) - (x3 + x1)) / (x3 - x1) = n := by field_simp; ring
    rw [this]
  obtain ⟨N, hN⟩ : ∃ N, x = 0.5 * (x3 + x1 + (x3 - x1) * N) :=
    ⟨(2 * x - (x3 + x1)) / (x3 - x1), by field_simp; ring⟩
  have hinj : ∀ n m : ℝ, 0.5 * (x3 + x1 + (x3 - x1) * n) = 0.5 * (x3 + x1 + (x3 - x1) * m) → n = m := by
    intro n m hnm
    have : (x3 - x1) * n = (x3 - x1) * m := by linarith
    exact mul_left_cancel₀ hd this
  have hext' : (∀ n, n ≠ N → y1 + n * 0.5 * (s + n * c) < y1 + N * 0.5 * (s + N * c)) ∨
      (∀ n, n ≠ N → y1 + N * 0.5 * (s + N * c) < y1 + n * 0.5 * (s + n * c)) := by
    rcases hext with hh | hh
    · left; intro n hn
      have := hh (0.5 * (x3 + x1 + (x3 - x1) * n)) (by rw [hN]; exact fun hc => hn (hinj _ _ hc))
      rw [hN, hX, hX] at this; exact this
    · right; intro n hn
      have := hh (0.5 * (x3 + x1 + (x3 - x1) * n)) (by rw [hN]; exact fun hc => hn (hinj _ _ hc))
      rw [hN, hX, hX] at this; exact this
  have hc0 : c ≠ 0 := by
    intro h0
    rcases hext' with hh | hh
    · have a1 := hh (N + 1) (by intro h; linarith)
      have a2 := hh (N - 1) (by intro h; linarith)
      rw [h0] at a1 a2; norm_num at a1 a2; nlinarith
    · have a1 := hh (N + 1) (by intro h; linarith)
      have a2 := hh (N - 1) (by intro h; linarith)
      rw [h0] at a1 a2; norm_num at a1 a2; nlinarith
  have hNs : N = s / (-2 * c) := by
    by_contra hne
    have a1 := hext'
    have hval : ∀ n : ℝ, y1 + n * 0.5 * (s + n * c) - (y1 - s * s / (8 * c)) = c / 2 * (n - s / (-2 * c)) ^ 2 := by
      intro n; field_simp; ring
    -- compare with the mirror image
    have hmir : 2 * (s / (-2 * c)) - N ≠ N := by intro h; apply hne; linarith
    have v1 := hval N
    have v2 := hval (2 * (s / (-2 * c)) - N)
    have : (2 * (s / (-2 * c)) - N - s / (-2 * c)) ^ 2 = (N - s / (-2 * c)) ^ 2 := by ring
    rw [this] at v2
    rcases hext' with hh | hh <;> have := hh _ hmir <;> linarith
  simp only [Len3.Extremum, Len3.y1, ← hc, ← hs, hc0, if_false, List.getD_cons_succ, List.getD_cons_zero]
  rw [← hNs]
  have hrange : ¬ (N < -1 ∨ N > 1) := by
    have hs := (C20_len3_strict x1 x3 _ _ hd0 x).1 hr
    simp only [Len3.InterpolateXStrict, Len3.InterpolateNStrict] at hs
    have hn : (2 * x - (x3 + x1)) / (x3 - x1) = N := by rw [hN]; field_simp; ring
    rw [hn] at hs
    intro hcon
    rw [if_pos hcon] at hs
    cases hs
  rw [if_neg hrange]
  congr 2
  · rw [hN]
  · have := hX N
    rw [← hc, ← hs] at this
    rw [hN, this, hNs]; field_simp; ring

/-- C21.  The two failures. -/
theorem C21_extremum_errors (x1 x3 y0 y1 y2 : ℝ) (d : Len3) (h : NewLen3 x1 x3 [y0, y1, y2] = .ok d) :
    d.Extremum = .error .NoExtremum ↔ y2 - y1 = y1 - y0 := by
  obtain ⟨_, _, _, hl, hx, rfl⟩ := newLen3_ok h
  simp only [List.cons.injEq, and_true] at hl
  obtain ⟨rfl, rfl, rfl⟩ := hl
  simp only [Len3.Extremum]
  constructor
  · intro he
    split_ifs at he with h1 h2
    · exact sub_eq_zero.1 h1
    · cases he
  · intro he
    rw [if_pos (sub_eq_zero.2 he)]

example : ∃ d, NewLen3 (12 : ℝ) 20 [1.3814294, 1.3812213, 1.3812453] = .ok d ∧ ∃ x v, d.Extremum = .ok (x, v) := by
  refine ⟨_, by simp [NewLen3]; rfl, ?_⟩
  simp only [Len3.Extremum, Len3.y1]
  norm_num

/-- C28.  Len4Half. -/
theorem C28_len4Half (y : List ℝ) :
    (y.length = 4 → ∃ v, Len4Half y = .ok v ∧
      ∀ (x1 x4 : ℝ) (g : ℝ → ℝ), PolyFun 3 g → Through x1 x4 y g → g ((x1 + x4) / 2) = v) ∧
    (y.length ≠ 4 → Len4Half y = .error .Not4) := by
  constructor
  · intro hl
    match y, hl with
    | [y0, y1, y2, y3], _ =>
      refine ⟨_, rfl, ?_⟩
      rintro x1 x4 g ⟨p, hp, hgp⟩ ht
      have h0 := ht 0 (by simp)
      have h1 := ht 1 (by simp)
      have h2 := ht 2 (by simp)
      have h3 := ht 3 (by simp)
      simp only [hgp, eval_natDegree_le p 3 hp, Finset.sum_range_succ, Finset.sum_range_zero] at h0 h1 h2 h3 ⊢
      norm_num at h0 h1 h2 h3 ⊢
      rw [← h0, ← h1, ← h2, ← h3]
      ring
  · intro hl
    unfold Len4Half
    split
    · simp at hl
    · rfl

/-- C24.  The constructor of Len5 fails exactly for a wrong number of rows or an empty x range. -/
theorem C24_newLen5_errors (x1 x5 : ℝ) (y : List ℝ) :
    ((∃ d, NewLen5 x1 x5 y = .ok d) ↔ y.length = 5 ∧ x1 ≠ x5) ∧
    (NewLen5 x1 x5 y = .error .Not5 ↔ y.length ≠ 5) ∧
    (NewLen5 x1 x5 y = .error .NoXRange ↔ y.length = 5 ∧ x1 = x5) := by
  unfold NewLen5
  split
  · next y0 y1 y2 y3 y4 =>
    by_cases h : x5 = x1
    · simp [h]
    · simp [h, Ne.symm h]
  · next hne =>
    have hl : y.length ≠ 5 := by
      intro h
      match y, h with
      | [a, b, c, d, e], _ => exact hne a b c d e rfl
    simp [hl]

/-- C24.  A Len5 interpolates by a polynomial of degree at most 4 through its five points … -/
theorem C24_len5_polynomial (x1 x5 : ℝ) (y : List ℝ) (d : Len5) (h : NewLen5 x1 x5 y = .ok d) :
    PolyFun 4 d.InterpolateX ∧ Through x1 x5 y d.InterpolateX := by
  obtain ⟨y0, y1, y2, y3, y4, rfl, hx, -, -, e3, es, ed, eb, ec, ef, eh, ej, ek, eco⟩ := newLen5_ok h
  have hd : x5 - x1 ≠ 0 := sub_ne_zero.2 hx
  have hv : ∀ n, d.InterpolateN n = y2 + ((d.b + d.c) / 2 - (d.h + d.j) / 12) * n + (d.f / 2 - d.k / 24) * n ^ 2 +
      (d.h + d.j) / 12 * n ^ 3 + d.k / 24 * n ^ 4 := by
    intro n; rw [Len5.InterpolateN, eco, len5_horner, e3]
  constructor
  · refine ⟨C y2 + C ((d.b + d.c) / 2 - (d.h + d.j) / 12) * (C (4 / (x5 - x1)) * X + C (-(2 * (x5 + x1)) / (x5 - x1))) +
      C (d.f / 2 - d.k / 24) * (C (4 / (x5 - x1)) * X + C (-(2 * (x5 + x1)) / (x5 - x1))) ^ 2 +
      C ((d.h + d.j) / 12) * (C (4 / (x5 - x1)) * X + C (-(2 * (x5 + x1)) / (x5 - x1))) ^ 3 +
      C (d.k / 24) * (C (4 / (x5 - x1)) * X + C (-(2 * (x5 + x1)) / (x5 - x1))) ^ 4, ?_, ?_⟩
    · compute_degree
    · intro x
      rw [Len5.InterpolateX, hv, es, ed]
      simp only [eval_add, eval_mul, eval_C, eval_X, eval_pow]
      have : (4 * x - 2 * (x5 + x1)) / (x5 - x1) = 4 / (x5 - x1) * x + -(2 * (x5 + x1)) / (x5 - x1) := by ring
      rw [this]
  · intro i hi
    simp only [List.length_cons, List.length_nil] at hi
    rw [Len5.InterpolateX, hv, es, ed, eb, ec, ef, eh, ej, ek]
    have hn : ∀ t : ℝ, (4 * (x1 + t * ((x5 - x1) / 4)) - 2 * (x5 + x1)) / (x5 - x1) = t - 2 := by
      intro t; field_simp; ring
    have h4 : (([y0, y1, y2, y3, y4].length : ℝ) - 1) = 4 := by norm_num
    rw [h4, hn]
    interval_cases i <;> norm_num <;> ring

/-- C24.  … and it is the only one. -/
theorem C24_len5_unique (x1 x5 : ℝ) (y : List ℝ) (d : Len5) (h : NewLen5 x1 x5 y = .ok d)
    (g : ℝ → ℝ) (hg : PolyFun 4 g) (ht : Through x1 x5 y g) (x : ℝ) : d.InterpolateX x = g x := by
  obtain ⟨y0, y1, y2, y3, y4, rfl, hx, -, -, e3, es, ed, eb, ec, ef, eh, ej, ek, eco⟩ := newLen5_ok h
  have hd : x5 - x1 ≠ 0 := sub_ne_zero.2 hx
  obtain ⟨p, hp, hgp⟩ := hg
  obtain ⟨n, hn⟩ : ∃ n, x = (x5 + x1) / 2 + (x5 - x1) / 4 * n :=
    ⟨(4 * x - 2 * (x5 + x1)) / (x5 - x1), by field_simp; ring⟩
  have hnx : (4 * x - 2 * (x5 + x1)) / (x5 - x1) = n := by rw [hn]; field_simp; ring
  have h0 := ht 0 (by simp)
  have h1 := ht 1 (by simp)
  have h2 := ht 2 (by simp)
  have h3 := ht 3 (by simp)
  have h4 := ht 4 (by simp)
  simp only [hgp, eval_natDegree_le p 4 hp, Finset.sum_range_succ, Finset.sum_range_zero] at h0 h1 h2 h3 h4 ⊢
  norm_num at h0 h1 h2 h3 h4
  rw [Len5.InterpolateX, es, ed, hnx, Len5.InterpolateN, eco, len5_horner, e3, eb, ec, ef, eh, ej, ek]
  rw [← h0, ← h1, ← h2, ← h3, ← h4, hn]
  ring

example : ∃ d, NewLen5 27 29 [54, 36, 24, 15, 0] = .ok d := by
  simp [NewLen5]

/-- C27 (partial).  The strict form accepts exactly the x within one tabular interval of the centre, half
of the documented range. -/
theorem C27_len5_strict_partial (x1 x5 : ℝ) (y : List ℝ) (d : Len5) (h : NewLen5 x1 x5 y = .ok d) (x : ℝ) :
    (|x - (x1 + x5) / 2| ≤ |x5 - x1| / 4 → d.InterpolateXStrict x = .ok (d.InterpolateX x)) ∧
    (¬ |x - (x1 + x5) / 2| ≤ |x5 - x1| / 4 → d.InterpolateXStrict x = .error .XOutOfRange) := by
  obtain ⟨y0, y1, y2, y3, y4, rfl, hx, -, -, e3, es, ed, -⟩ := newLen5_ok h
  have hd : x5 - x1 ≠ 0 := sub_ne_zero.2 hx
  have key : ((4 * x - 2 * (x5 + x1)) / (x5 - x1) < -1 ∨ (4 * x - 2 * (x5 + x1)) / (x5 - x1) > 1) ↔
      ¬ |x - (x1 + x5) / 2| ≤ |x5 - x1| / 4 := by
    have h1 : |(4 * x - 2 * (x5 + x1)) / (x5 - x1)| ≤ 1 ↔ |x - (x1 + x5) / 2| ≤ |x5 - x1| / 4 := by
      rw [abs_div, div_le_one (abs_pos.2 hd)]
      have : 4 * x - 2 * (x5 + x1) = 4 * (x - (x1 + x5) / 2) := by ring
      rw [this, abs_mul]
      norm_num
      constructor <;> intro h <;> linarith
    rw [← h1, abs_le, not_and_or, not_le, not_le]
  rw [Len5.InterpolateXStrict, Len5.InterpolateX, es, ed]
  constructor
  · intro hin
    rw [Len5.InterpolateNStrict, if_neg (fun hc => (key.1 hc) hin)]; rfl
  · intro hout
    rw [Len5.InterpolateNStrict, if_pos (key.2 hout)]; rfl

/-- C27, violation: for every table, each x in the outer two quarters of the documented range is
rejected; in particular the first and the last tabulated abscissa. -/
theorem C27_violation (x1 x5 : ℝ) (y : List ℝ) (d : Len5) (h : NewLen5 x1 x5 y = .ok d) :
    d.InterpolateXStrict x1 = .error .XOutOfRange ∧ d.InterpolateXStrict x5 = .error .XOutOfRange := by
  have hx : x5 - x1 ≠ 0 := by
    obtain ⟨y0, y1, y2, y3, y4, rfl, hx, -⟩ := newLen5_ok h
    exact sub_ne_zero.2 hx
  have hp := abs_pos.2 hx
  constructor
  · refine (C27_len5_strict_partial x1 x5 y d h x1).2 ?_
    rw [show x1 - (x1 + x5) / 2 = -(x5 - x1) / 2 by ring, abs_div, abs_neg]
    norm_num; linarith
  · refine (C27_len5_strict_partial x1 x5 y d h x5).2 ?_
    rw [show x5 - (x1 + x5) / 2 = (x5 - x1) / 2 by ring, abs_div]
    norm_num; linarith

end Verif.Props
