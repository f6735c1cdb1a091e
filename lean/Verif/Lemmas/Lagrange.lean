import Verif.Lemmas.Interp
import Mathlib.LinearAlgebra.Lagrange
import Mathlib.Algebra.BigOperators.Field

namespace Verif.Lemmas

open Verif.Go Verif.Model Finset
open Verif.Model.Interp (LPState lpStep lpOuter LagrangePoly)

theorem foldl_add_range (f : ℕ → ℝ) (n : ℕ) (a : ℝ) :
    (List.range n).foldl (fun s i => s + f i) a = a + ∑ i ∈ range n, f i := by
  induction n with
  | zero => simp
  | succ n ih => rw [List.range_succ, List.foldl_append, ih, sum_range_succ]; simp [add_assoc]

theorem foldl_mul_range_ne (f : ℕ → ℝ) (n i : ℕ) :
    (List.range n).foldl (fun p j => if i ≠ j then p * f j else p) 1 = ∏ j ∈ (range n).erase i, f j := by
  induction n with
  | zero => simp
  | succ n ih =>
    rw [List.range_succ, List.foldl_append, ih]
    simp only [List.foldl_cons, List.foldl_nil]
    rw [range_add_one]
    by_cases h : i = n
    · subst h
      simp only [ne_eq, not_true, if_false]
      rw [erase_insert (by simp), erase_eq_of_notMem (by simp)]
    · rw [if_pos h, erase_insert_of_ne (Ne.symm h), prod_insert (by simp), mul_comm]

theorem lagrange_eval (x : ℝ) (n : ℕ) (X Y : ℕ → ℝ) :
    Interp.Lagrange x n X Y = ((_root_.Lagrange.interpolate (range n) X) Y).eval x := by
  unfold Interp.Lagrange
  rw [foldl_add_range (fun i => Y i * (List.range n).foldl (fun prod j =>
      if i ≠ j then prod * ((x - X j) / (X i - X j)) else prod) 1), zero_add,
    _root_.Lagrange.interpolate_apply, Polynomial.eval_finset_sum]
  refine sum_congr rfl fun i _ => ?_
  rw [foldl_mul_range_ne (fun j => (x - X j) / (X i - X j)), Polynomial.eval_mul, Polynomial.eval_C,
    _root_.Lagrange.basis, Polynomial.eval_prod]
  congr 1
  refine prod_congr rfl fun j _ => ?_
  rw [_root_.Lagrange.basisDivisor, Polynomial.eval_mul, Polynomial.eval_C, Polynomial.eval_sub,
    Polynomial.eval_X, Polynomial.eval_C, div_eq_inv_mul]

theorem lp_inner (xj : ℝ) (m n : ℕ) (p : ℕ → ℝ) (k : ℕ) :
    (List.range' n m).foldl (fun p k => Function.update p k (p k - p (k + 1) * xj)) p k =
      if n ≤ k ∧ k < n + m then p k - p (k + 1) * xj else p k := by
  induction m generalizing n p with
  | zero => simp
  | succ m ih =>
    rw [List.range'_succ, List.foldl_cons, ih]
    by_cases h1 : k = n
    · subst h1
      rw [if_neg (by omega), if_pos (by omega), Function.update_self]
    · rw [Function.update_of_ne h1]
      by_cases h2 : n + 1 ≤ k ∧ k < n + 1 + m
      · rw [if_pos h2, if_pos (by omega), Function.update_of_ne (by omega)]
      · rw [if_neg h2, if_neg (by omega)]

/-- What the `j` loop of LagrangePoly maintains. -/
def LPInv (X : ℕ → ℝ) (last i : ℕ) (J : ℕ) (s : LPState) : Prop :=
  s.n = last - (J - if i < J then 1 else 0) ∧
  (∀ x, ∑ t ∈ range (last - s.n + 1), s.prod (s.n + t) * x ^ t = ∏ j ∈ (range J).erase i, (x - X j)) ∧
  s.den = ∏ j ∈ (range J).erase i, (X i - X j)

theorem lp_step_inv (X : ℕ → ℝ) (last i J : ℕ) (s : LPState) (hi : i ≤ last) (hJ : J ≤ last)
    (h : LPInv X last i J s) : LPInv X last i (J + 1) (lpStep X last i s J) := by
  obtain ⟨h1, h2, h3⟩ := h
  unfold lpStep
  by_cases hij : i = J
  · subst hij
    simp only [ne_eq, not_true, if_false]
    have he : (range (i + 1)).erase i = (range i).erase i := by
      rw [range_add_one, erase_insert (by simp), erase_eq_of_notMem (by simp)]
    refine ⟨?_, ?_, ?_⟩
    · rw [h1]; simp
    · intro x; rw [h2, he]
    · rw [h3, he]
  · simp only [ne_eq, hij, not_false_iff, if_true]
    have he : (range (J + 1)).erase i = insert J ((range J).erase i) := by
      rw [range_add_one, erase_insert_of_ne (Ne.symm hij)]
    have hnm : J ∉ (range J).erase i := by simp
    have hn : 1 ≤ s.n ∧ s.n ≤ last := by
      rw [h1]; split_ifs <;> omega
    refine ⟨?_, ?_, ?_⟩
    · simp only [h1]
      by_cases hlt : i < J
      · rw [if_pos hlt, if_pos (by omega)]; omega
      · rw [if_neg hlt, if_neg (by omega)]; omega
    · intro x
      rw [he, prod_insert hnm, ← h2 x]
      obtain ⟨m, hm⟩ : ∃ m, last = s.n + m := ⟨last - s.n, by omega⟩
      obtain ⟨q, hq⟩ : ∃ q, s.n = q + 1 := ⟨s.n - 1, by omega⟩
      simp only [hm, Nat.add_sub_cancel_left]
      have hnew : ∀ t, (List.range' s.n m).foldl (fun p k => Function.update p k (p k - p (k + 1) * X J))
          (Function.update s.prod (s.n - 1) (s.prod s.n * -X J)) (s.n - 1 + t) =
          if t = 0 then s.prod s.n * -X J else if t ≤ m then s.prod (s.n + (t - 1)) - s.prod (s.n + t) * X J
            else s.prod (s.n - 1 + t) := by
        intro t
        rw [lp_inner]
        cases t with
        | zero => rw [if_neg (by omega), if_pos rfl]; simp
        | succ t =>
          rw [if_neg (Nat.succ_ne_zero t)]
          by_cases htm : t + 1 ≤ m
          · rw [if_pos (by omega), if_pos htm, Function.update_of_ne (by omega), Function.update_of_ne (by omega)]
            rw [show s.n - 1 + (t + 1) = s.n + (t + 1 - 1) by omega, show s.n + (t + 1 - 1) + 1 = s.n + (t + 1) by omega]
          · rw [if_neg (by omega), if_neg htm, Function.update_of_ne (by omega)]
      have hr : s.n + m - (s.n - 1) + 1 = m + 1 + 1 := by omega
      rw [hr]
      simp only [hnew]
      rw [sum_range_succ, sum_range_succ']
      have e1 : ∀ t ∈ range m, (if t + 1 = 0 then s.prod s.n * -X J else
          if t + 1 ≤ m then s.prod (s.n + (t + 1 - 1)) - s.prod (s.n + (t + 1)) * X J else s.prod (s.n - 1 + (t + 1))) * x ^ (t + 1) =
          s.prod (s.n + t) * x ^ t * x - X J * (s.prod (s.n + (t + 1)) * x ^ (t + 1)) := by
        intro t ht
        rw [mem_range] at ht
        rw [if_neg (Nat.succ_ne_zero t), if_pos (by omega), Nat.add_sub_cancel]
        ring
      rw [sum_congr rfl e1, sum_sub_distrib, ← mul_sum, ← sum_mul]
      rw [if_neg (by omega : ¬ m + 1 = 0), if_neg (by omega : ¬ m + 1 ≤ m), if_pos rfl]
      have e2 : s.n - 1 + (m + 1) = s.n + m := by omega
      rw [e2]
      have e3 : ∑ t ∈ range (m + 1), s.prod (s.n + t) * x ^ t =
        ∑ t ∈ range m, s.prod (s.n + (t + 1)) * x ^ (t + 1) + s.prod s.n := by
        rw [sum_range_succ']; simp
      have e4 := sum_range_succ (fun t => s.prod (s.n + t) * x ^ t) m
      rw [pow_zero, pow_succ]
      linear_combination (X J) * e3 - x * e4
    · simp only
      rw [he, prod_insert hnm, h3, mul_comm]

theorem lp_loop_inv (X : ℕ → ℝ) (last i J : ℕ) (p : ℕ → ℝ) (hi : i ≤ last) (hJ : J ≤ last + 1) :
    LPInv X last i J ((List.range J).foldl (lpStep X last i)
      { prod := Function.update p last 1, n := last, den := 1 }) := by
  induction J with
  | zero =>
    refine ⟨by simp, ?_, by simp⟩
    intro x; simp
  | succ J ih =>
    rw [List.range_succ, List.foldl_append]
    exact lp_step_inv X last i J _ hi (by omega) (ih (by omega))

theorem lp_outer (len : ℕ) (X Y : ℕ → ℝ) (hlen : 0 < len) (I : ℕ) (hI : I ≤ len) (x : ℝ) :
    ∑ t ∈ range len, ((List.range I).foldl (lpOuter len X Y) (fun _ => 0, fun _ => 0)).1 t * x ^ t =
      ∑ i ∈ range I, Y i * ((∏ j ∈ (range len).erase i, (x - X j)) / ∏ j ∈ (range len).erase i, (X i - X j)) := by
  induction I with
  | zero => simp
  | succ I ih =>
    rw [List.range_succ, List.foldl_append, sum_range_succ, ← ih (by omega)]
    simp only [List.foldl_cons, List.foldl_nil]
    generalize (List.range I).foldl (lpOuter len X Y) (fun _ => 0, fun _ => 0) = s
    simp only [lpOuter]
    obtain ⟨h1, h2, h3⟩ := lp_loop_inv X (len - 1) I len s.2 (by omega) (by omega)
    generalize (List.range len).foldl (lpStep X (len - 1) I) { prod := Function.update s.2 (len - 1) 1, n := len - 1, den := 1 } = st at *
    rw [if_pos (by omega)] at h1
    have hn : st.n = 0 := by rw [h1]; omega
    have h2x := h2 x
    rw [hn] at h2x
    simp only [zero_add, Nat.sub_zero] at h2x
    rw [show len - 1 + 1 = len by omega] at h2x
    rw [← h2x, h3, sum_div, mul_sum, ← sum_add_distrib]
    refine sum_congr rfl fun t _ => by ring

end Verif.Lemmas
