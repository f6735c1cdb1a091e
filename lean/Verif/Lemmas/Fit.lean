import Verif.Model.Fit
import Verif.Spec.Fit
import Mathlib.Tactic.LinearCombination
import Mathlib.Tactic.FieldSimp
import Mathlib.Tactic.Linarith
import Mathlib.LinearAlgebra.Matrix.Determinant.Basic
import Mathlib.LinearAlgebra.Matrix.ToLinearEquiv
import Mathlib.Algebra.Order.BigOperators.Group.List

namespace Verif.Lemmas

open Verif.Model.Fit Verif.Spec

theorem acc_foldl (p : List (ℝ × ℝ)) (g : ℝ → ℝ → ℝ) (s : ℝ) :
    p.foldl (fun s q => s + g q.1 q.2) s = s + acc p g := by
  unfold acc
  induction p generalizing s with
  | nil => simp
  | cons a l ih => simp only [List.foldl_cons]; rw [ih, ih (0 + _)]; ring

theorem acc_nil (g : ℝ → ℝ → ℝ) : acc [] g = 0 := rfl

theorem acc_cons (a : ℝ × ℝ) (l : List (ℝ × ℝ)) (g : ℝ → ℝ → ℝ) : acc (a :: l) g = g a.1 a.2 + acc l g := by
  show (a :: l).foldl (fun s q => s + g q.1 q.2) 0 = _
  rw [List.foldl_cons, acc_foldl]; ring

theorem acc_nonneg (p : List (ℝ × ℝ)) (g : ℝ → ℝ → ℝ) (h : ∀ x y, 0 ≤ g x y) : 0 ≤ acc p g := by
  induction p with
  | nil => simp [acc_nil]
  | cons a l ih => rw [acc_cons]; exact add_nonneg (h _ _) ih

theorem acc_pos (p : List (ℝ × ℝ)) (g : ℝ → ℝ → ℝ) (h : ∀ x y, 0 ≤ g x y) (q : ℝ × ℝ) (hq : q ∈ p)
    (hp : 0 < g q.1 q.2) : 0 < acc p g := by
  induction p with
  | nil => simp at hq
  | cons a l ih =>
    rw [acc_cons]
    rcases List.mem_cons.1 hq with rfl | hq
    · exact add_pos_of_pos_of_nonneg hp (acc_nonneg l g h)
    · exact add_pos_of_nonneg_of_pos (h _ _) (ih hq)

theorem acc_const (p : List (ℝ × ℝ)) (c : ℝ) : acc p (fun _ _ => c) = p.length * c := by
  induction p with
  | nil => simp [acc_nil]
  | cons a l ih => rw [acc_cons, ih]; push_cast [List.length_cons]; ring

theorem acc_congr (p : List (ℝ × ℝ)) (g h : ℝ → ℝ → ℝ) (e : ∀ q ∈ p, g q.1 q.2 = h q.1 q.2) : acc p g = acc p h := by
  induction p with
  | nil => rfl
  | cons a l ih =>
    rw [acc_cons, acc_cons, e a (by simp), ih fun q hq => e q (List.mem_cons_of_mem a hq)]

theorem acc_add (p : List (ℝ × ℝ)) (g h : ℝ → ℝ → ℝ) : acc p (fun x y => g x y + h x y) = acc p g + acc p h := by
  induction p with
  | nil => simp [acc_nil]
  | cons a l ih => simp only [acc_cons, ih]; ring

theorem acc_mul (p : List (ℝ × ℝ)) (c : ℝ) (g : ℝ → ℝ → ℝ) : acc p (fun x y => c * g x y) = c * acc p g := by
  induction p with
  | nil => simp [acc_nil]
  | cons a l ih => simp only [acc_cons, ih]; ring

theorem sse_acc (p : List (ℝ × ℝ)) (g : ℝ → ℝ) : sse p g = acc p fun x y => (y - g x) ^ 2 := by
  unfold sse
  induction p with
  | nil => simp [acc_nil]
  | cons a l ih => rw [List.map_cons, List.sum_cons, ih, acc_cons]

/-- Orthogonality principle: a fit whose residual is orthogonal to the competitor's difference is at least
as good, the excess being the squared difference. -/
theorem sse_orth (p : List (ℝ × ℝ)) (g g' : ℝ → ℝ)
    (h : acc p (fun x y => (y - g x) * (g' x - g x)) = 0) :
    sse p g' = sse p g + acc p fun x _ => (g' x - g x) ^ 2 := by
  rw [sse_acc, sse_acc]
  have e : acc p (fun x y => (y - g' x) ^ 2) = acc p fun x y =>
      ((y - g x) ^ 2 + (g' x - g x) ^ 2) + (-2) * ((y - g x) * (g' x - g x)) :=
    acc_congr p _ _ fun q _ => by ring
  rw [e, acc_add p (fun x y => (y - g x) ^ 2 + (g' x - g x) ^ 2), acc_mul, h,
    acc_add p (fun x y => (y - g x) ^ 2)]
  ring

theorem sq_acc_zero (p : List (ℝ × ℝ)) (g : ℝ → ℝ → ℝ) (h : acc p (fun x y => (g x y) ^ 2) = 0) :
    ∀ q ∈ p, g q.1 q.2 = 0 := by
  intro q hq
  by_contra hne
  have := acc_pos p (fun x y => (g x y) ^ 2) (fun _ _ => sq_nonneg _) q hq (by positivity)
  linarith

/-- The determinant of the normal equations. -/
noncomputable def gram3 (p : List (ℝ × ℝ)) (f0 f1 f2 : ℝ → ℝ) : ℝ :=
  let M := acc p fun x _ => f0 x * f0 x
  let P := acc p fun x _ => f0 x * f1 x
  let Q := acc p fun x _ => f0 x * f2 x
  let R := acc p fun x _ => f1 x * f1 x
  let S := acc p fun x _ => f1 x * f2 x
  let T := acc p fun x _ => f2 x * f2 x
  M * R * T + 2 * P * Q * S - M * S * S - R * Q * Q - T * P * P

theorem gram3_ne_zero (p : List (ℝ × ℝ)) (f0 f1 f2 : ℝ → ℝ) (hind : Indep3 p f0 f1 f2) :
    gram3 p f0 f1 f2 ≠ 0 := by
  intro hz
  set M := acc p fun x _ => f0 x * f0 x with hM
  set P := acc p fun x _ => f0 x * f1 x with hP
  set Q := acc p fun x _ => f0 x * f2 x with hQ
  set R := acc p fun x _ => f1 x * f1 x with hR
  set S := acc p fun x _ => f1 x * f2 x with hS
  set T := acc p fun x _ => f2 x * f2 x with hT
  have hz' : M * R * T + 2 * P * Q * S - M * S * S - R * Q * Q - T * P * P = 0 := hz
  have hdet : Matrix.det !![M, P, Q; P, R, S; Q, S, T] = 0 := by
    rw [Matrix.det_fin_three]; simp; linear_combination hz'
  obtain ⟨v, hv, hmul⟩ := Matrix.exists_mulVec_eq_zero_iff.2 hdet
  have h0 := congrFun hmul 0
  have h1 := congrFun hmul 1
  have h2 := congrFun hmul 2
  simp [Matrix.mulVec, dotProduct, Fin.sum_univ_three] at h0 h1 h2
  have hq : acc p (fun x _ => (v 0 * f0 x + v 1 * f1 x + v 2 * f2 x) ^ 2) = 0 := by
    have e : acc p (fun x _ => (v 0 * f0 x + v 1 * f1 x + v 2 * f2 x) ^ 2) =
        v 0 * (v 0 * M + v 1 * P + v 2 * Q) + v 1 * (v 0 * P + v 1 * R + v 2 * S) + v 2 * (v 0 * Q + v 1 * S + v 2 * T) := by
      rw [hM, hP, hQ, hR, hS, hT]
      clear_value M P Q R S T
      clear hM hP hQ hR hS hT
      clear hz hz' hdet hmul h0 h1 h2 hind
      induction p with
      | nil => simp [acc_nil]
      | cons a l ih => simp only [acc_cons]; rw [ih]; ring
    rw [e]
    linear_combination v 0 * h0 + v 1 * h1 + v 2 * h2
  have := sq_acc_zero p (fun x _ => v 0 * f0 x + v 1 * f1 x + v 2 * f2 x) hq
  obtain ⟨a, b, c⟩ := hind (v 0) (v 1) (v 2) this
  apply hv
  funext i
  fin_cases i <;> simpa

end Verif.Lemmas
