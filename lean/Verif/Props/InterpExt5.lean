import Verif.Props.InterpZero
import Mathlib.Tactic.NormNum.Pow

/-! Property C25: `Len5.Extremum`. -/

namespace Verif.Props

open Verif.Go Verif.Model Verif.Model.Interp Verif.Spec Verif.Lemmas

/-- Derivative of the interpolating quartic. -/
theorem len5_hasDerivAt {x1 x5 y0 y1 y2 y3 y4 : ℝ} {d : Len5} (h : NewLen5 x1 x5 [y0, y1, y2, y3, y4] = .ok d)
    (x n : ℝ) (hn : n = (4 * x - 2 * (x5 + x1)) / (x5 - x1)) :
    HasDerivAt d.InterpolateX ((((d.b + d.c) / 2 - (d.h + d.j) / 12) + 2 * (d.f / 2 - d.k / 24) * n +
      3 * ((d.h + d.j) / 12) * n ^ 2 + 4 * (d.k / 24) * n ^ 3) * (4 / (x5 - x1))) x := by
  obtain ⟨hd, es, ed, e3, eb, ec, ef, eh, ej, ek, hv⟩ := len5_value h
  have hfun : d.InterpolateX = fun x => (fun n => y2 + ((d.b + d.c) / 2 - (d.h + d.j) / 12) * n +
      (d.f / 2 - d.k / 24) * n ^ 2 + (d.h + d.j) / 12 * n ^ 3 + d.k / 24 * n ^ 4)
        ((4 * x - 2 * (x5 + x1)) / (x5 - x1)) := by
    funext x; rw [Len5.InterpolateX, Len5.InterpolateN, hv, es, ed]
  rw [hfun]
  have h1 : HasDerivAt (fun x : ℝ => (4 * x - 2 * (x5 + x1)) / (x5 - x1)) (4 / (x5 - x1)) x := by
    have := (((hasDerivAt_id x).const_mul 4).sub_const (2 * (x5 + x1))).div_const (x5 - x1)
    simpa using this
  have hp : ∀ m : ℝ, HasDerivAt (fun n : ℝ => y2 + ((d.b + d.c) / 2 - (d.h + d.j) / 12) * n +
      (d.f / 2 - d.k / 24) * n ^ 2 + (d.h + d.j) / 12 * n ^ 3 + d.k / 24 * n ^ 4)
      (((d.b + d.c) / 2 - (d.h + d.j) / 12) + 2 * (d.f / 2 - d.k / 24) * m +
      3 * ((d.h + d.j) / 12) * m ^ 2 + 4 * (d.k / 24) * m ^ 3) m := by
    intro m
    have a1 := ((hasDerivAt_id m).const_mul ((d.b + d.c) / 2 - (d.h + d.j) / 12)).const_add y2
    have a2 := ((hasDerivAt_id m).pow 2).const_mul (d.f / 2 - d.k / 24)
    have a3 := ((hasDerivAt_id m).pow 3).const_mul ((d.h + d.j) / 12)
    have a4 := ((hasDerivAt_id m).pow 4).const_mul (d.k / 24)
    have := ((a1.add a2).add a3).add a4
    refine this.congr_deriv ?_
    simp only [id, Nat.cast_ofNat, Nat.reduceSub, pow_one, mul_one]
    ring
  have := (hp ((4 * x - 2 * (x5 + x1)) / (x5 - x1))).comp x h1
  rw [← hn] at this
  exact this

/-- C25 (partial).  A point reported by `Len5.Extremum` lies in the table range, the value is the
interpolated value, and the derivative (per tabular interval) of the interpolating quartic there is
`H/4 * n²` up to a `2·10⁻¹³` relative bound, `H` the first third difference and `n` the distance from the centre in
tabular intervals.  Missing: the term `H/4 * n²`, an error of the code, should not be there. -/
theorem C25_extremum_partial (x1 x5 y0 y1 y2 y3 y4 Y : ℝ) (d : Len5)
    (h : NewLen5 x1 x5 [y0, y1, y2, y3, y4] = .ok d) (hY : ∀ v ∈ [y0, y1, y2, y3, y4], |v| ≤ Y)
    (x v : ℝ) (he : d.Extremum = .ok (x, v)) :
    min x1 x5 ≤ x ∧ x ≤ max x1 x5 ∧ v = d.InterpolateX x ∧
    ∃ D, HasDerivAt d.InterpolateX D x ∧
      |D * ((x5 - x1) / 4) - (y3 - 3 * y2 + 3 * y1 - y0) / 4 * ((4 * x - 2 * (x5 + x1)) / (x5 - x1)) ^ 2| ≤ 2 / 10 ^ 13 * Y := by
  obtain ⟨hd, es, ed, e3, eb, ec, ef, eh, ej, ek, hv⟩ := len5_value h
  have hx : x5 ≠ x1 := sub_ne_zero.1 hd
  simp only [List.mem_cons, List.not_mem_nil, or_false, forall_eq_or_imp, forall_eq, abs_le] at hY
  obtain ⟨⟨a0, b0⟩, ⟨a1, b1⟩, ⟨a2, b2⟩, ⟨a3, b3⟩, ⟨a4, b4⟩⟩ := hY
  have bH : |d.h + d.k| ≤ 14 * Y := by rw [eh, ek, abs_le]; constructor <;> linarith
  have bK : |d.k| ≤ 16 * Y := by rw [ek, abs_le]; constructor <;> linarith
  have hY0 : 0 ≤ Y := by linarith
  simp only [Len5.Extremum, es, ed] at he
  split_ifs at he with h0
  split at he
  swap; · cases he
  next n0 hit =>
  split_ifs at he with hr
  obtain ⟨hz, hv'⟩ := Prod.mk.inj (by injection he)
  obtain ⟨a, b, hb, hf, ha, htol⟩ := iterateLoop_sound _ _ _ _ hit
  obtain rfl : n0 = b := by simpa using hb
  push Not at hr
  have hnabs : |n0| ≤ 2 := abs_le.2 hr
  obtain ⟨hδ, haa⟩ := tol_bounds ha htol zero_le_two hnabs
  have hnx : (4 * x - 2 * (x5 + x1)) / (x5 - x1) = n0 := by rw [← hz]; field_simp; ring
  refine ⟨?_, ?_, ?_, _, len5_hasDerivAt h x n0 hnx.symm, ?_⟩
  · rcases lt_or_gt_of_ne hx with hlt | hgt
    · rw [min_eq_right hlt.le]; nlinarith
    · rw [min_eq_left (le_of_lt hgt)]; nlinarith [show x1 < x5 from hgt]
  · rcases lt_or_gt_of_ne hx with hlt | hgt
    · rw [max_eq_left hlt.le]; nlinarith
    · rw [max_eq_right (le_of_lt hgt)]; nlinarith [show x1 < x5 from hgt]
  · rw [Len5.InterpolateX, Len5.InterpolateN, es, ed, hnx, hv']
  · rw [hnx]
    simp only [Len5.extF, hornerD, Horner, List.reverse_cons, List.reverse_nil, List.nil_append,
            List.cons_append, List.foldl_cons, List.foldl_nil, Option.getD_some, EF.fin_mul, EF.fin_add] at hf
    rw [EF.fin_div_ne h0, EF.fin_inj, div_eq_iff h0] at hf
    have hjk : d.j = d.k + d.h := by rw [ej, ek, eh]; ring
    have e1 : ((d.b + d.c) / 2 - (d.h + d.j) / 12 + 2 * (d.f / 2 - d.k / 24) * n0 + 3 * ((d.h + d.j) / 12) * n0 ^ 2 +
        4 * (d.k / 24) * n0 ^ 3) * (4 / (x5 - x1)) * ((x5 - x1) / 4) - (y3 - 3 * y2 + 3 * y1 - y0) / 4 * n0 ^ 2 =
        (d.h + d.k) / 4 * (n0 ^ 2 - a ^ 2) + d.k / 6 * (n0 ^ 3 - a ^ 3) := by
      rw [mul_assoc, show 4 / (x5 - x1) * ((x5 - x1) / 4) = 1 by field_simp, ← eh]
      rw [hjk] at hf ⊢
      linear_combination (1 / 12) * hf
    rw [e1]
    obtain ⟨p2, p3, -⟩ := pow_diff_bounds (r := 2.1) hδ (haa.trans (by norm_num)) (hnabs.trans (by norm_num))
    have t1 := abs_add_le ((d.h + d.k) / 4 * (n0 ^ 2 - a ^ 2)) (d.k / 6 * (n0 ^ 3 - a ^ 3))
    rw [abs_mul, abs_mul, abs_div, abs_div] at t1
    have w1 := mul_le_mul bH p2 (abs_nonneg _) (by linarith)
    have w2 := mul_le_mul bK p3 (abs_nonneg _) (by linarith)
    norm_num at w1 w2 t1 ⊢
    linarith

/-- C25 (partial).  In particular the answer is right when the first third difference vanishes. -/
theorem C25_extremum_no_third_partial (x1 x5 y0 y1 y2 y3 y4 Y : ℝ) (d : Len5)
    (h : NewLen5 x1 x5 [y0, y1, y2, y3, y4] = .ok d) (hY : ∀ v ∈ [y0, y1, y2, y3, y4], |v| ≤ Y)
    (h3 : y3 - 3 * y2 + 3 * y1 - y0 = 0) (x v : ℝ) (he : d.Extremum = .ok (x, v)) :
    ∃ D, HasDerivAt d.InterpolateX D x ∧ |D * ((x5 - x1) / 4)| ≤ 2 / 10 ^ 13 * Y := by
  obtain ⟨-, -, -, D, hD, hb⟩ := C25_extremum_partial x1 x5 y0 y1 y2 y3 y4 Y d h hY x v he
  refine ⟨D, hD, ?_⟩
  rw [h3] at hb
  simpa using hb

/-- C25, violation.  For the table x = 1, 2, 3, 4, 5 with the rows below `Extremum` succeeds, near
x = 3.5, but the interpolating quartic still has slope > 0.4 there (it is stationary near 3.465). -/
theorem C25_violation : ∃ d, NewLen5 1 5 [43.5, 18.25, 0, 0.75, 20.5] = .ok d ∧
    ∃ x v D, d.Extremum = .ok (x, v) ∧ HasDerivAt d.InterpolateX D x ∧ 0.4 < D := by
  obtain ⟨d, hd⟩ : ∃ d, NewLen5 1 5 [43.5, 18.25, 0, 0.75, 20.5] = .ok d := by
    refine ⟨_, by simp only [NewLen5]; rw [if_neg (by norm_num)]⟩
  obtain ⟨-, es, ed, e3, eb, ec, ef, eh, ej, ek, hv⟩ := len5_value hd
  norm_num at es ed e3 eb ec ef eh ej ek
  have hden : d.k - 12 * d.f = -240 := by rw [ek, ef]; norm_num
  have hF : ∀ x : ℝ, d.extF (.fin x) = .fin (0.4875 + x ^ 3 / 10) := by
    intro x
    simp only [Len5.extF, hornerD, Horner, List.reverse_cons, List.reverse_nil, List.nil_append,
            List.cons_append, List.foldl_cons, List.foldl_nil, Option.getD_some, EF.fin_mul, EF.fin_add]
    rw [hden, EF.fin_div_ne (by norm_num), EF.fin_inj, eb, ec, eh, ej, ek]
    ring
  have hlip : ∀ x y : ℝ, 0.4875 ≤ x → x ≤ 0.5 → 0.4875 ≤ y → y ≤ 0.5 →
      |(0.4875 + x ^ 3 / 10) - (0.4875 + y ^ 3 / 10)| ≤ 0.1 * |x - y| := by
    intro x y h1 h2 h3 h4
    rw [show (0.4875 + x ^ 3 / 10) - (0.4875 + y ^ 3 / 10) = (x ^ 2 + x * y + y ^ 2) / 10 * (x - y) by ring, abs_mul]
    refine mul_le_mul_of_nonneg_right ?_ (abs_nonneg _)
    rw [abs_le]; constructor <;> nlinarith
  have hm : ∀ x : ℝ, 0.4875 ≤ x → x ≤ 0.5 → 0.4875 ≤ 0.4875 + x ^ 3 / 10 ∧ 0.4875 + x ^ 3 / 10 ≤ 0.5 := by
    intro x h1 h2
    have h3 : x ^ 3 ≤ 0.5 ^ 3 := pow_le_pow_left₀ (by linarith) h2 3
    have h4 : 0 ≤ x ^ 3 := pow_nonneg (by linarith) 3
    constructor
    · linarith
    · norm_num at h3 ⊢; linarith
  obtain ⟨n, hn1, hn2, hit⟩ := iterateLoop_contract d.extF (fun x => 0.4875 + x ^ 3 / 10) 0.4875 0.5 0.1
    (by norm_num) (by norm_num) (fun x _ _ => hF x) hm hlip 20 49 0.4875 (by norm_num) (by norm_num)
    (by norm_num [abs_of_pos]) (by norm_num)
  have hit' : iterate (.fin 0) d.extF = some (.fin n) := by
    unfold iterate
    rw [iterateLoop]
    simp only [hF, EF.notFinite_fin, if_false, EF.fin_sub, EF.abs_div_lt]
    rw [if_neg (by simp)]
    convert hit using 2
    norm_num
  refine ⟨d, hd, 3 + n, hornerD n d.interpCoeff 0, _, ?_, len5_hasDerivAt hd (3 + n) n (by ring), ?_⟩
  · unfold Len5.Extremum
    rw [hit', if_neg (by rw [hden]; norm_num)]
    simp only
    rw [if_neg (by push Not; constructor <;> linarith), es, ed]
    norm_num
  · rw [eb, ec, ef, eh, ej, ek]
    norm_num
    have h3 : n ^ 3 ≤ 0.5 ^ 3 := pow_le_pow_left₀ (by linarith) hn2 3
    have h2 : 0.4875 ^ 2 ≤ n ^ 2 := pow_le_pow_left₀ (by norm_num) hn1 2
    norm_num at h2 h3 hn1
    linarith

end Verif.Props
