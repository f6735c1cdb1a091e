import Verif.Lemmas.InterpIter
import Verif.Spec.Interp

/-! Properties C22, C23, C25, C26: roots and extrema found by iteration. -/

namespace Verif.Props

open Verif.Go Verif.Model Verif.Model.Interp Verif.Spec Verif.Lemmas

/-- C22.  A zero reported by `Len3.Zero` lies in the table range and the interpolating quadratic is
within `10⁻¹⁵` (weak) or `10⁻²⁹` (strong) times the second difference of zero there. -/
theorem C22_zero_sound (x1 x3 y0 y1 y2 : ℝ) (d : Len3) (h : NewLen3 x1 x3 [y0, y1, y2] = .ok d)
    (strong : Bool) (x : ℝ) (hz : d.Zero strong = .ok x) :
    min x1 x3 ≤ x ∧ x ≤ max x1 x3 ∧
    |d.InterpolateX x| ≤ |y2 - 2 * y1 + y0| * (if strong then 1 / 10 ^ 29 else 1.001 / 10 ^ 15) := by
  obtain ⟨_, _, _, hl, hx, rfl⟩ := newLen3_ok h
  simp only [List.cons.injEq, and_true] at hl
  obtain ⟨rfl, rfl, rfl⟩ := hl
  have hd : x3 - x1 ≠ 0 := sub_ne_zero.2 hx
  obtain ⟨c, hc⟩ : ∃ c, c = y2 - y1 - (y1 - y0) := ⟨_, rfl⟩
  obtain ⟨s, hs⟩ : ∃ s, s = y1 - y0 + (y2 - y1) := ⟨_, rfl⟩
  rw [show y2 - 2 * y1 + y0 = c by rw [hc]; ring]
  simp only [Len3.Zero, Len3.InterpolateX, Len3.InterpolateN, Len3.y1, ← hc, ← hs,
    List.getD_cons_succ, List.getD_cons_zero] at hz ⊢
  split at hz
  swap; · cases hz
  next n0 hit =>
  split_ifs at hz with hr
  injection hz with hz
  obtain ⟨a, b, hb, hf, ha, htol⟩ := iterateLoop_sound _ _ _ _ hit
  obtain rfl : n0 = b := by simpa using hb
  push Not at hr
  have hnabs : |n0| ≤ 1 := abs_le.2 ⟨hr.2, hr.1⟩
  obtain ⟨hδ, haa⟩ := tol_bounds ha htol zero_le_one hnabs
  have hnx : (2 * x - (x3 + x1)) / (x3 - x1) = n0 := by rw [← hz]; field_simp; ring
  refine ⟨?_, ?_, ?_⟩
  · rcases lt_or_gt_of_ne hx with hlt | hgt
    · rw [min_eq_right hlt.le]; nlinarith
    · rw [min_eq_left (le_of_lt hgt)]; nlinarith [show x1 < x3 from hgt]
  · rcases lt_or_gt_of_ne hx with hlt | hgt
    · rw [max_eq_left hlt.le]; nlinarith
    · rw [max_eq_right (le_of_lt hgt)]; nlinarith [show x1 < x3 from hgt]
  · rw [hnx]
    cases strong with
    | true =>
      simp only [Len3.zeroF, if_true, Len3.y1, List.getD_cons_succ, List.getD_cons_zero, EF.fin_mul, EF.fin_add, ← hc, ← hs] at hf ⊢
      by_cases h0 : s + 2 * c * a = 0
      · exfalso
        rw [h0, EF.fin_div, if_pos rfl] at hf
        split_ifs at hf <;> cases hf
      · rw [EF.fin_div_ne h0, EF.fin_sub, EF.fin_inj] at hf
        have e1 : (n0 - a) * (s + 2 * c * a) = -(2 * y1 + a * (s + c * a)) := by
          rw [show n0 - a = -(2 * y1 + a * (s + c * a)) / (s + 2 * c * a) by rw [← hf]; ring, div_mul_cancel₀ _ h0]
        have e2 : y1 + n0 * 0.5 * (s + n0 * c) = c * ((n0 - a) ^ 2 / 2) := by linear_combination (1/2) * e1
        rw [e2, abs_mul]
        refine mul_le_mul_of_nonneg_left ?_ (abs_nonneg c)
        rw [abs_div, abs_pow]
        have := pow_le_pow_left₀ (abs_nonneg _) hδ 2
        norm_num at this ⊢
        linarith
    | false =>
      simp only [Len3.zeroF, Len3.y1, List.getD_cons_succ, List.getD_cons_zero, EF.fin_mul, EF.fin_add, ← hc, ← hs,
        Bool.false_eq_true, if_false] at hf ⊢
      by_cases h0 : s + c * a = 0
      · exfalso
        rw [h0, EF.fin_div, if_pos rfl] at hf
        split_ifs at hf <;> cases hf
      · rw [EF.fin_div_ne h0, EF.fin_inj] at hf
        have e1 : n0 * (s + c * a) = -2 * y1 := by
          rw [← hf]; field_simp
        have e2 : y1 + n0 * 0.5 * (s + n0 * c) = c * (n0 * (n0 - a) / 2) := by linear_combination (1/2) * e1
        rw [e2, abs_mul]
        refine mul_le_mul_of_nonneg_left ?_ (abs_nonneg c)
        rw [abs_div, abs_mul]
        have := mul_le_mul hnabs hδ (abs_nonneg _) zero_le_one
        norm_num at this ⊢
        linarith

/-- The hypotheses of C22 are met by the table x = -1, 0, 1, y = -10, 1, 12 (weak strategy finds the
zero of a line in its second iteration). -/
example : ∃ d, NewLen3 (-1) 1 [-10, 1, 12] = .ok d ∧ d.Zero false = .ok (-1 / 11) := by
  refine ⟨_, by simp only [NewLen3]; rw [if_neg (by norm_num)], ?_⟩
  have hf : ∀ (d : Len3) (x : ℝ), d.y = [-10, 1, 12] → d.abSum = 22 → d.c = 0 →
      d.zeroF false (.fin x) = .fin (-1 / 11) := by
    intro d x h1 h2 h3
    simp only [Len3.zeroF, Len3.y1, h1, h2, h3, List.getD_cons_succ, List.getD_cons_zero, Bool.false_eq_true, if_false,
      EF.fin_mul, EF.fin_add, zero_mul, add_zero]
    rw [EF.fin_div_ne (by norm_num)]
    norm_num
  have hi : ∀ f : EF → EF, (∀ x, f (.fin x) = .fin (-1 / 11)) → iterate (.fin 0) f = some (.fin (-1 / 11)) := by
    intro f hf
    unfold iterate
    rw [iterateLoop]
    simp only [hf, EF.notFinite_fin, if_false, EF.fin_sub, EF.abs_div_lt]
    rw [if_neg (by simp), iterateLoop]
    simp only [hf, EF.notFinite_fin, if_false, EF.fin_sub, EF.abs_div_lt]
    rw [if_pos (by norm_num)]
  unfold Len3.Zero
  rw [hi _ (fun x => hf _ x rfl (by norm_num) (by norm_num))]
  norm_num

/-- C23, violation: a three row table that is exactly zero at its central row never gets an answer,
whichever strategy, whatever the other rows: the iteration starts on the root and the relative error is 0/0. -/
theorem C23_len3_violation (x1 x3 y0 y2 : ℝ) (hx : x1 ≠ x3) (strong : Bool) :
    ∃ d, NewLen3 x1 x3 [y0, 0, y2] = .ok d ∧ d.InterpolateX ((x1 + x3) / 2) = 0 ∧
      d.Zero strong = .error .NoConverge := by
  refine ⟨_, by simp only [NewLen3]; rw [if_neg hx.symm], ?_, ?_⟩
  · simp only [Len3.InterpolateX, Len3.InterpolateN, Len3.y1]
    rw [show 2 * ((x1 + x3) / 2) - (x3 + x1) = 0 by ring]
    simp
  · have key : ∀ (d : Len3), d.y.getD 1 0 = 0 → ∀ fuel, iterateLoop (d.zeroF strong) fuel (.fin 0) = none := by
      intro d h0 fuel
      have hf : d.zeroF strong (.fin 0) = .fin 0 ∨ (d.zeroF strong (.fin 0)).NotFinite := by
        cases strong with
        | true =>
          simp only [Len3.zeroF, Len3.y1, h0, if_true, EF.fin_mul, EF.fin_add, mul_zero, zero_mul, add_zero, EF.fin_div]
          by_cases hs : d.abSum = 0 <;> simp [hs]
        | false =>
          simp only [Len3.zeroF, Len3.y1, h0, EF.fin_mul, EF.fin_add, mul_zero, add_zero, EF.fin_div, Bool.false_eq_true, if_false]
          by_cases hs : d.abSum = 0 <;> simp [hs]
      rcases hf with hf | hf
      · induction fuel with
        | zero => rfl
        | succ n ih =>
          unfold iterateLoop
          simp only [hf, EF.notFinite_fin, if_false, EF.fin_sub]
          rw [if_neg (by rw [hf, EF.fin_sub, EF.abs_div_lt]; simp)]
          exact ih
      · exact iterateLoop_notFinite _ _ _ hf
    unfold Len3.Zero iterate
    rw [key _ (by simp)]

/-- Values of a Len5 in the normalised variable. -/
theorem len5_value {x1 x5 y0 y1 y2 y3 y4 : ℝ} {d : Len5} (h : NewLen5 x1 x5 [y0, y1, y2, y3, y4] = .ok d) :
    x5 - x1 ≠ 0 ∧ d.xSum = x5 + x1 ∧ d.xDiff = x5 - x1 ∧ d.y3 = y2 ∧ d.b = y2 - y1 ∧ d.c = y3 - y2 ∧
    d.f = y3 - 2 * y2 + y1 ∧ d.h = y3 - 3 * y2 + 3 * y1 - y0 ∧ d.j = y4 - 3 * y3 + 3 * y2 - y1 ∧
    d.k = y4 - 4 * y3 + 6 * y2 - 4 * y1 + y0 ∧
    ∀ n, hornerD n d.interpCoeff 0 = y2 + ((d.b + d.c) / 2 - (d.h + d.j) / 12) * n + (d.f / 2 - d.k / 24) * n ^ 2 +
      (d.h + d.j) / 12 * n ^ 3 + d.k / 24 * n ^ 4 := by
  obtain ⟨_, _, _, _, _, hl, hx, -, -, e3, es, ed, eb, ec, ef, eh, ej, ek, eco⟩ := newLen5_ok h
  simp only [List.cons.injEq, and_true] at hl
  obtain ⟨rfl, rfl, rfl, rfl, rfl⟩ := hl
  refine ⟨sub_ne_zero.2 hx, es, ed, e3, eb, ec, ef, eh, ej, ek, ?_⟩
  intro n; rw [eco, len5_horner, e3]

theorem C23_len5_violation (x1 x5 y0 y1 y3 y4 : ℝ) (hx : x1 ≠ x5) (strong : Bool) :
    ∃ d, NewLen5 x1 x5 [y0, y1, 0, y3, y4] = .ok d ∧ d.InterpolateX ((x1 + x5) / 2) = 0 ∧
      d.Zero strong = .error .NoConverge := by
  obtain ⟨d, hd⟩ : ∃ d, NewLen5 x1 x5 [y0, y1, 0, y3, y4] = .ok d := by
    refine ⟨_, by simp only [NewLen5]; rw [if_neg hx.symm]⟩
  obtain ⟨-, es, ed, e3, -, -, -, -, -, -, hv⟩ := len5_value hd
  refine ⟨d, hd, ?_, ?_⟩
  · rw [Len5.InterpolateX, Len5.InterpolateN, hv, es, ed]
    rw [show 4 * ((x1 + x5) / 2) - 2 * (x5 + x1) = 0 by ring]
    simp
  · have key : ∀ fuel, iterateLoop (d.zeroF strong) fuel (.fin 0) = none := by
      intro fuel
      have hf : d.zeroF strong (.fin 0) = .fin 0 ∨ (d.zeroF strong (.fin 0)).NotFinite := by
        cases strong with
        | true =>
          simp only [Len5.zeroF, e3, if_true, hornerD, Horner, List.reverse_cons, List.reverse_nil, List.nil_append,
            List.cons_append, List.foldl_cons, List.foldl_nil, Option.getD_some, EF.fin_mul, EF.fin_add, mul_zero, zero_add, EF.fin_div]
          by_cases hs : (d.b + d.c) / 2 - (d.h + d.j) / 12 = 0 <;> simp [hs]
        | false =>
          simp only [Len5.zeroF, e3, hornerD, Horner, List.reverse_cons, List.reverse_nil, List.nil_append,
            List.cons_append, List.foldl_cons, List.foldl_nil, Option.getD_some, EF.fin_mul, EF.fin_add, mul_zero, zero_add,
            Bool.false_eq_true, if_false, EF.fin_div]
          by_cases hs : 12 * (d.b + d.c) - 2 * (d.h + d.j) = 0 <;> simp [hs]
      rcases hf with hf | hf
      · induction fuel with
        | zero => rfl
        | succ n ih =>
          unfold iterateLoop
          simp only [hf, EF.notFinite_fin, if_false, EF.fin_sub]
          rw [if_neg (by rw [hf, EF.fin_sub, EF.abs_div_lt]; simp)]
          exact ih
      · exact iterateLoop_notFinite _ _ _ hf
    unfold Len5.Zero iterate
    rw [key]

set_option maxHeartbeats 2000000 in
/-- C26.  A zero reported by `Len5.Zero` lies in the table range and the interpolating quartic is
within `10⁻¹³` of zero there, relative to the largest tabulated value. -/
theorem C26_zero_sound (x1 x5 y0 y1 y2 y3 y4 Y : ℝ) (d : Len5) (h : NewLen5 x1 x5 [y0, y1, y2, y3, y4] = .ok d)
    (hY : ∀ v ∈ [y0, y1, y2, y3, y4], |v| ≤ Y)
    (strong : Bool) (x : ℝ) (hz : d.Zero strong = .ok x) :
    min x1 x5 ≤ x ∧ x ≤ max x1 x5 ∧ |d.InterpolateX x| ≤ Y * (if strong then 1 / 10 ^ 27 else 2 / 10 ^ 13) := by
  obtain ⟨hd, es, ed, e3, eb, ec, ef, eh, ej, ek, hv⟩ := len5_value h
  have hx : x5 ≠ x1 := sub_ne_zero.1 hd
  simp only [List.mem_cons, List.not_mem_nil, or_false, forall_eq_or_imp, forall_eq, abs_le] at hY
  obtain ⟨⟨a0, b0⟩, ⟨a1, b1⟩, ⟨a2, b2⟩, ⟨a3, b3⟩, ⟨a4, b4⟩⟩ := hY
  obtain ⟨M, hM⟩ : ∃ M, M = d.k / 24 := ⟨_, rfl⟩
  obtain ⟨P, hP⟩ : ∃ P, P = d.f / 2 - M := ⟨_, rfl⟩
  obtain ⟨N, hN⟩ : ∃ N, N = (d.h + d.j) / 12 := ⟨_, rfl⟩
  obtain ⟨Q, hQ⟩ : ∃ Q, Q = (d.b + d.c) / 2 - N := ⟨_, rfl⟩
  have bP : |P| ≤ 8 / 3 * Y := by rw [hP, hM, ef, ek, abs_le]; constructor <;> linarith
  have bN : |N| ≤ Y / 2 := by rw [hN, eh, ej, abs_le]; constructor <;> linarith
  have bM : |M| ≤ 2 / 3 * Y := by rw [hM, ek, abs_le]; constructor <;> linarith
  have hY0 : 0 ≤ Y := by linarith
  simp only [← hN, ← hM, ← hP, ← hQ] at hv
  simp only [Len5.Zero, es, ed] at hz
  split at hz
  swap; · cases hz
  next n0 hit =>
  split_ifs at hz with hr
  injection hz with hz
  obtain ⟨a, b, hb, hf, ha, htol⟩ := iterateLoop_sound _ _ _ _ hit
  obtain rfl : n0 = b := by simpa using hb
  push Not at hr
  have hnabs : |n0| ≤ 2 := abs_le.2 ⟨hr.2, hr.1⟩
  obtain ⟨hδ, haa⟩ := tol_bounds ha htol zero_le_two hnabs
  have hnx : (4 * x - 2 * (x5 + x1)) / (x5 - x1) = n0 := by rw [← hz]; field_simp; ring
  refine ⟨?_, ?_, ?_⟩
  · rcases lt_or_gt_of_ne hx with hlt | hgt
    · rw [min_eq_right hlt.le]; nlinarith
    · rw [min_eq_left (le_of_lt hgt)]; nlinarith [show x1 < x5 from hgt]
  · rcases lt_or_gt_of_ne hx with hlt | hgt
    · rw [max_eq_left hlt.le]; nlinarith
    · rw [max_eq_right (le_of_lt hgt)]; nlinarith [show x1 < x5 from hgt]
  · rw [Len5.InterpolateX, Len5.InterpolateN, es, ed, hnx, hv]
    cases strong with
    | true =>
      simp only [Len5.zeroF, e3, if_true, hornerD, Horner, List.reverse_cons, List.reverse_nil, List.nil_append,
            List.cons_append, List.foldl_cons, List.foldl_nil, Option.getD_some, EF.fin_mul, EF.fin_add,
            ← hN, ← hM, ← hP, ← hQ] at hf ⊢
      obtain ⟨D, hD⟩ : ∃ D, D = ((4 * M * a + 3 * N) * a + 2 * P) * a + Q := ⟨_, rfl⟩
      rw [← hD] at hf
      by_cases h0 : D = 0
      · exfalso
        rw [h0, EF.fin_div, if_pos rfl] at hf
        split_ifs at hf <;> cases hf
      · rw [EF.fin_div_ne h0, EF.fin_sub, EF.fin_inj] at hf
        have e1 : (n0 - a) * D = -((((M * a + N) * a + P) * a + Q) * a + y2) := by
          rw [show n0 - a = -((((M * a + N) * a + P) * a + Q) * a + y2) / D by rw [← hf]; ring, div_mul_cancel₀ _ h0]
        have e2 : y2 + Q * n0 + P * n0 ^ 2 + N * n0 ^ 3 + M * n0 ^ 4 =
            (n0 - a) ^ 2 * (P + N * (2 * a + n0) + M * (3 * a ^ 2 + 2 * a * n0 + n0 ^ 2)) := by
          rw [hD] at e1; linear_combination e1
        rw [e2, abs_mul]
        have hbr : |P + N * (2 * a + n0) + M * (3 * a ^ 2 + 2 * a * n0 + n0 ^ 2)| ≤ 30 * Y := by
          have t1 := abs_add_le (P + N * (2 * a + n0)) (M * (3 * a ^ 2 + 2 * a * n0 + n0 ^ 2))
          have t2 := abs_add_le P (N * (2 * a + n0))
          rw [abs_mul] at t1 t2
          have u1 : |2 * a + n0| ≤ 7 := by
            rw [abs_le] at haa hnabs ⊢; constructor <;> linarith
          have u2 : |3 * a ^ 2 + 2 * a * n0 + n0 ^ 2| ≤ 25 := by
            have v1 : a ^ 2 ≤ 4.01 := by rw [← sq_abs]; nlinarith [abs_nonneg a]
            have v2 : n0 ^ 2 ≤ 4 := by rw [← sq_abs]; nlinarith [abs_nonneg n0]
            rw [abs_le]; constructor <;> nlinarith [sq_nonneg (a + n0), sq_nonneg (a - n0), sq_nonneg a]
          have w1 : |N| * |2 * a + n0| ≤ Y / 2 * 7 := mul_le_mul bN u1 (abs_nonneg _) (by linarith)
          have w2 : |M| * |3 * a ^ 2 + 2 * a * n0 + n0 ^ 2| ≤ 2 / 3 * Y * 25 := mul_le_mul bM u2 (abs_nonneg _) (by linarith)
          linarith
        rw [abs_pow]
        have := pow_le_pow_left₀ (abs_nonneg _) hδ 2
        have := mul_le_mul this hbr (abs_nonneg _) (by positivity)
        norm_num at this ⊢
        linarith
    | false =>
      simp only [Len5.zeroF, e3, hornerD, Horner, List.reverse_cons, List.reverse_nil, List.nil_append,
            List.cons_append, List.foldl_cons, List.foldl_nil, Option.getD_some, EF.fin_mul, EF.fin_add, zero_add,
            Bool.false_eq_true, if_false] at hf ⊢
      rw [show 12 * (d.b + d.c) - 2 * (d.h + d.j) = 24 * Q by rw [hQ, hN]; ring,
        show d.k - 12 * d.f = -24 * P by rw [hP, hM]; ring, show -2 * (d.h + d.j) = -24 * N by rw [hN]; ring,
        show -d.k = -24 * M by rw [hM]; ring] at hf
      by_cases h0 : 24 * Q = 0
      · exfalso
        rw [h0, EF.fin_div, if_pos rfl] at hf
        split_ifs at hf <;> cases hf
      · rw [EF.fin_div_ne h0, EF.fin_inj, div_eq_iff h0] at hf
        have e2 : y2 + Q * n0 + P * n0 ^ 2 + N * n0 ^ 3 + M * n0 ^ 4 =
            P * (n0 ^ 2 - a ^ 2) + N * (n0 ^ 3 - a ^ 3) + M * (n0 ^ 4 - a ^ 4) := by
          linear_combination -(1 / 24) * hf
        rw [e2]
        obtain ⟨p2, p3, p4⟩ := pow_diff_bounds (r := 2.1) hδ (haa.trans (by norm_num)) (hnabs.trans (by norm_num))
        have t1 := abs_add_le (P * (n0 ^ 2 - a ^ 2) + N * (n0 ^ 3 - a ^ 3)) (M * (n0 ^ 4 - a ^ 4))
        have t2 := abs_add_le (P * (n0 ^ 2 - a ^ 2)) (N * (n0 ^ 3 - a ^ 3))
        rw [abs_mul] at t1
        rw [abs_mul, abs_mul] at t2
        have w1 := mul_le_mul bP p2 (abs_nonneg _) (by linarith)
        have w2 := mul_le_mul bN p3 (abs_nonneg _) (by linarith)
        have w3 := mul_le_mul bM p4 (abs_nonneg _) (by linarith)
        norm_num at w1 w2 w3 ⊢
        linarith

/-- An iteration function that is constant away from zero converges at once. -/
theorem iterate_const (f : EF → EF) (c : ℝ) (hc : c ≠ 0) (hf : ∀ x, f (.fin x) = .fin c) :
    iterate (.fin 0) f = some (.fin c) := by
  unfold iterate
  rw [iterateLoop]
  simp only [hf, EF.notFinite_fin, if_false, EF.fin_sub, EF.abs_div_lt]
  rw [if_neg (by simp), iterateLoop]
  simp only [hf, EF.notFinite_fin, if_false, EF.fin_sub, EF.abs_div_lt]
  rw [if_pos ⟨hc, by simp⟩]

/-- C26: a line through five rows, not zero at the centre and zero somewhere in the table, gets its exact zero from both
strategies. -/
theorem C26_linear (x1 x5 y s : ℝ) (hx : x1 ≠ x5) (hy : y ≠ 0) (hs : s ≠ 0) (hr : |y / s| ≤ 2) (strong : Bool) :
    ∃ d, NewLen5 x1 x5 [y - 2 * s, y - s, y, y + s, y + 2 * s] = .ok d ∧
      d.Zero strong = .ok ((x1 + x5) / 2 - (x5 - x1) / 4 * (y / s)) := by
  obtain ⟨d, hd⟩ : ∃ d, NewLen5 x1 x5 [y - 2 * s, y - s, y, y + s, y + 2 * s] = .ok d := by
    refine ⟨_, by simp only [NewLen5]; rw [if_neg hx.symm]⟩
  obtain ⟨-, es, ed, e3, eb, ec, ef, eh, ej, ek, -⟩ := len5_value hd
  refine ⟨d, hd, ?_⟩
  have hb : d.b = s := by rw [eb]; ring
  have hc : d.c = s := by rw [ec]; ring
  have hf : d.f = 0 := by rw [ef]; ring
  have hh : d.h = 0 := by rw [eh]; ring
  have hj : d.j = 0 := by rw [ej]; ring
  have hk : d.k = 0 := by rw [ek]; ring
  have hF : ∀ x, d.zeroF strong (.fin x) = .fin (-(y / s)) := by
    intro x
    cases strong
    · simp only [Len5.zeroF, Bool.false_eq_true, if_false, hornerD, Horner, List.reverse_cons, List.reverse_nil, List.nil_append, List.cons_append,
        List.foldl_cons, List.foldl_nil, EF.fin_mul, EF.fin_add, Option.getD_some, hb, hc, hf, hh, hj, hk, e3]
      rw [EF.fin_div_ne (by simp; intro h; exact hs (by linarith))]
      congr 1
      field_simp
      ring
    · simp only [Len5.zeroF, if_true, hornerD, Horner, List.reverse_cons, List.reverse_nil, List.nil_append, List.cons_append,
        List.foldl_cons, List.foldl_nil, EF.fin_mul, EF.fin_add, Option.getD_some, hb, hc, hf, hh, hj, hk, e3]
      rw [EF.fin_div_ne (by intro h; apply hs; linarith), EF.fin_sub]
      congr 1
      field_simp
      ring
  unfold Len5.Zero
  rw [iterate_const _ _ (neg_ne_zero.2 (div_ne_zero hy hs)) hF]
  rw [abs_le] at hr
  dsimp only
  rw [if_neg (by push Not; constructor <;> linarith), es, ed]
  congr 1
  ring

end Verif.Props
