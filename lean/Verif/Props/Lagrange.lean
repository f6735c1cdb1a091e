import Verif.Lemmas.Lagrange

/-! Property C19: Lagrange interpolation.  A table of `n` rows is given by indexing functions `X`, `Y`. -/

namespace Verif.Props

open Verif.Go Verif.Model Verif.Lemmas Finset
open Verif.Model.Interp (LagrangePoly)

/-- Abscissae are distinct. -/
def Distinct (n : ℕ) (X : ℕ → ℝ) : Prop := ∀ i j, i < n → j < n → X i = X j → i = j

theorem distinct_injOn {n : ℕ} {X : ℕ → ℝ} (h : Distinct n X) : Set.InjOn X (range n : Finset ℕ) := by
  intro i hi j hj hij
  simp at hi hj
  exact h i j hi hj hij

/-- C19.  Lagrange passes through the table points. -/
theorem C19_through (n : ℕ) (X Y : ℕ → ℝ) (h : Distinct n X) (i : ℕ) (hi : i < n) :
    Interp.Lagrange (X i) n X Y = Y i := by
  rw [lagrange_eval]
  exact _root_.Lagrange.eval_interpolate_at_node _ (distinct_injOn h) (mem_range.2 hi)

/-- C19.  Lagrange reproduces polynomials of degree less than the number of rows. -/
theorem C19_reproduces (n : ℕ) (X Y : ℕ → ℝ) (h : Distinct n X) (p : Polynomial ℝ) (hp : p.degree < n)
    (hy : ∀ i < n, Y i = p.eval (X i)) (x : ℝ) : Interp.Lagrange x n X Y = p.eval x := by
  rw [lagrange_eval, ← _root_.Lagrange.eq_interpolate_of_eval_eq Y (distinct_injOn h) (by simpa using hp)
    (fun i hi => (hy i (mem_range.1 hi)).symm)]

/-- C19.  The order of the rows does not matter. -/
theorem C19_order (n : ℕ) (X Y : ℕ → ℝ) (σ : ℕ → ℕ) (hσ : ∀ i < n, σ i < n)
    (hinj : ∀ i j, i < n → j < n → σ i = σ j → i = j) (h : Distinct n X) (x : ℝ) :
    Interp.Lagrange x n (X ∘ σ) (Y ∘ σ) = Interp.Lagrange x n X Y := by
  have hd : Distinct n (X ∘ σ) := fun i j hi hj hij => hinj i j hi hj (h _ _ (hσ i hi) (hσ j hj) hij)
  rw [lagrange_eval x n X Y]
  apply C19_reproduces n _ _ hd
  · have := _root_.Lagrange.degree_interpolate_lt Y (distinct_injOn h)
    simpa using this
  · intro i hi
    exact (_root_.Lagrange.eval_interpolate_at_node _ (distinct_injOn h) (mem_range.2 (hσ i hi))).symm

/-- C19.  The coefficients computed by LagrangePoly, evaluated by Horner, give the same value; there is
one coefficient per row. -/
theorem C19_poly (n : ℕ) (hn : 0 < n) (X Y : ℕ → ℝ) (x : ℝ) :
    (LagrangePoly n X Y).length = n ∧ Horner x (LagrangePoly n X Y) = some (Interp.Lagrange x n X Y) := by
  have hl : (LagrangePoly n X Y).length = n := by simp [LagrangePoly]
  refine ⟨hl, ?_⟩
  rw [horner_sum x _ (by intro h; rw [h] at hl; simp at hl; omega), hl]
  congr 1
  have h1 : ∀ t ∈ range n, (LagrangePoly n X Y).getD t 0 * x ^ t =
      ((List.range n).foldl (Interp.lpOuter n X Y) (fun _ => 0, fun _ => 0)).1 t * x ^ t := by
    intro t ht
    rw [mem_range] at ht
    simp [LagrangePoly, ht]
  rw [sum_congr rfl h1, lp_outer n X Y hn n le_rfl x]
  unfold Interp.Lagrange
  rw [foldl_add_range (fun i => Y i * (List.range n).foldl (fun prod j =>
      if i ≠ j then prod * ((x - X j) / (X i - X j)) else prod) 1), zero_add]
  refine sum_congr rfl fun i _ => ?_
  rw [foldl_mul_range_ne (fun j => (x - X j) / (X i - X j)), prod_div_distrib]

/-- A table to which all of the above apply. -/
example : Distinct 3 (fun i => (i : ℝ) ^ 2) := by
  intro i j hi hj h
  have : (i : ℝ) = j := by
    have h1 : (0 : ℝ) ≤ i := Nat.cast_nonneg i
    have h2 : (0 : ℝ) ≤ j := Nat.cast_nonneg j
    simpa using (pow_left_inj₀ h1 h2 two_ne_zero).1 h
  exact_mod_cast this

end Verif.Props
