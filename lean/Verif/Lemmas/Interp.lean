import Verif.Model.Interp
import Mathlib.Algebra.Polynomial.Eval.Degree
import Mathlib.Algebra.Polynomial.Degree.Lemmas
import Mathlib.Data.List.GetD
import Mathlib.Tactic.ComputeDegree
import Mathlib.Tactic.FieldSimp
import Mathlib.Tactic.Linarith
import Mathlib.Tactic.LinearCombination
import Mathlib.Algebra.BigOperators.Group.Finset.Basic

namespace Verif.Lemmas

open Verif.Go Verif.Model Verif.Model.Interp Polynomial Finset

theorem horner_foldl {α : Type} [CommSemiring α] (x : α) (l : List α) (y : α) :
    l.reverse.foldl (fun y ci => y * x + ci) y =
      y * x ^ l.length + ∑ i ∈ range l.length, l.getD i 0 * x ^ i := by
  induction l generalizing y with
  | nil => simp
  | cons a l ih =>
    rw [List.reverse_cons, List.foldl_append, ih]
    simp only [List.foldl_cons, List.foldl_nil, List.length_cons]
    rw [sum_range_succ']
    simp only [List.getD_cons_succ, List.getD_cons_zero, pow_zero, mul_one]
    rw [add_mul, sum_mul]
    rw [← add_assoc, pow_succ, ← mul_assoc]
    congr 2
    exact sum_congr rfl fun i _ => by ring

theorem horner_sum {α : Type} [CommSemiring α] (x : α) (c : List α) (hc : c ≠ []) :
    Horner x c = some (∑ i ∈ range c.length, c.getD i 0 * x ^ i) := by
  unfold Horner
  obtain ⟨l, a, rfl⟩ : ∃ l a, c = l ++ [a] := ⟨c.dropLast, c.getLast hc, (List.dropLast_append_getLast hc).symm⟩
  rw [List.reverse_append]
  simp only [List.reverse_singleton, List.cons_append, List.nil_append, List.length_append, List.length_singleton]
  rw [horner_foldl, sum_range_succ]
  simp only [Option.some.injEq]
  rw [add_comm]
  congr 1
  · apply sum_congr rfl
    intro i hi
    rw [List.getD_append _ _ _ _ (mem_range.1 hi)]
  · simp

theorem eval_natDegree_le (p : ℝ[X]) (n : ℕ) (h : p.natDegree ≤ n) (x : ℝ) :
    p.eval x = ∑ i ∈ range (n + 1), p.coeff i * x ^ i :=
  eval_eq_sum_range' (Nat.lt_succ_of_le h) x

theorem newLen3_ok {x1 x3 : ℝ} {y : List ℝ} {d : Len3} (h : NewLen3 x1 x3 y = .ok d) :
    ∃ y0 y1 y2, y = [y0, y1, y2] ∧ x3 ≠ x1 ∧
      d = ⟨x1, x3, [y0, y1, y2], y1 - y0, y2 - y1, y2 - y1 - (y1 - y0), y1 - y0 + (y2 - y1), x3 + x1, x3 - x1⟩ := by
  unfold NewLen3 at h
  split at h
  · next y0 y1 y2 =>
    split_ifs at h with hx
    exact ⟨y0, y1, y2, rfl, hx, by injection h with h; exact h.symm⟩
  · cases h

theorem newLen5_ok {x1 x5 : ℝ} {y : List ℝ} {d : Len5} (h : NewLen5 x1 x5 y = .ok d) :
    ∃ y0 y1 y2 y3 y4, y = [y0, y1, y2, y3, y4] ∧ x5 ≠ x1 ∧
      d.x1 = x1 ∧ d.x5 = x5 ∧ d.y3 = y2 ∧ d.xSum = x5 + x1 ∧ d.xDiff = x5 - x1 ∧
      d.b = y2 - y1 ∧ d.c = y3 - y2 ∧ d.f = y3 - 2 * y2 + y1 ∧ d.h = y3 - 3 * y2 + 3 * y1 - y0 ∧
      d.j = y4 - 3 * y3 + 3 * y2 - y1 ∧ d.k = y4 - 4 * y3 + 6 * y2 - 4 * y1 + y0 ∧
      d.interpCoeff = [d.y3, (d.b + d.c) / 2 - (d.h + d.j) / 12, d.f / 2 - d.k / 24, (d.h + d.j) / 12, d.k / 24] := by
  unfold NewLen5 at h
  split at h
  · next y0 y1 y2 y3 y4 =>
    split_ifs at h with hx
    injection h with h
    subst h
    refine ⟨y0, y1, y2, y3, y4, rfl, hx, rfl, rfl, rfl, rfl, rfl, rfl, rfl, ?_, ?_, ?_, ?_, rfl⟩ <;> ring
  · cases h

/-- Value of the Len5 interpolating polynomial. -/
theorem len5_horner (c0 c1 c2 c3 c4 n : ℝ) :
    hornerD n [c0, c1, c2, c3, c4] 0 = c0 + c1 * n + c2 * n ^ 2 + c3 * n ^ 3 + c4 * n ^ 4 := by
  simp [hornerD, Horner]; ring

end Verif.Lemmas
