/-
Go integer arithmetic.

`int` and `int64` are modelled by unbounded `Int`.  Go's `/` truncates toward
zero and `%` takes the sign of the dividend (Go spec, "Arithmetic operators"),
which are `Int.tdiv` and `Int.tmod`.
-/
namespace Verif.Go

/-- Go `x / y` for `y ≠ 0`. -/
abbrev quo (x y : Int) : Int := x.tdiv y

/-- Go `x % y` for `y ≠ 0`. -/
abbrev rem (x y : Int) : Int := x.tmod y

/-- Go `x / y` including the run time panic on a zero divisor. -/
def quo? (x y : Int) : Option Int := if y = 0 then none else some (quo x y)

/-- Go `x % y` including the run time panic on a zero divisor. -/
def rem? (x y : Int) : Option Int := if y = 0 then none else some (rem x y)

theorem quo_rem_pos (x k : Int) :
    (0 ≤ x ∧ quo x k = x / k ∧ rem x k = x % k) ∨
    (x < 0 ∧ quo x k = -((-x) / k) ∧ rem x k = -((-x) % k)) := by
  rcases Int.lt_or_le x 0 with h | h
  · right
    obtain ⟨z, hz⟩ : ∃ z, z = -x := ⟨_, rfl⟩
    have hx : x = -z := by omega
    have h0 : 0 ≤ z := by omega
    subst hx
    refine ⟨h, ?_, ?_⟩
    · rw [quo, Int.neg_tdiv, Int.tdiv_eq_ediv_of_nonneg h0]; simp
    · rw [rem, Int.neg_tmod, Int.tmod_eq_emod_of_nonneg h0]; simp
  · left
    exact ⟨h, Int.tdiv_eq_ediv_of_nonneg h, Int.tmod_eq_emod_of_nonneg h⟩

theorem quo_nonneg_eq {x k : Int} (h : 0 ≤ x) : quo x k = x / k :=
  Int.tdiv_eq_ediv_of_nonneg h

theorem rem_nonneg_eq {x k : Int} (h : 0 ≤ x) : rem x k = x % k :=
  Int.tmod_eq_emod_of_nonneg h

theorem rem_eq_zero_iff (x k : Int) : rem x k = 0 ↔ k ∣ x :=
  (Int.dvd_iff_tmod_eq_zero).symm

end Verif.Go
