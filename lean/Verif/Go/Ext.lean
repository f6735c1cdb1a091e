import Mathlib.Data.Real.Basic
import Mathlib.Algebra.Order.Ring.Abs
/-
Extended floating point numbers: finite values without rounding or overflow,
infinities and NaN.

Used where the code branches on non-finite values (division by zero, `IsNaN`,
`IsInf`).  Simplifications: finite arithmetic is exact, zero has no sign (so the
sign of `x/0` is the sign of `x`).  Everything else follows IEEE 754 as the Go
specification and package math document it.
-/
namespace Verif.Go

open Classical

inductive EF where
  | fin (x : ℝ)
  | inf (neg : Bool)
  | nan

namespace EF

noncomputable def neg : EF → EF
  | fin x => fin (-x)
  | inf s => inf (!s)
  | nan => nan

noncomputable def add : EF → EF → EF
  | fin x, fin y => fin (x + y)
  | fin _, inf s => inf s
  | inf s, fin _ => inf s
  | inf s, inf t => if s = t then inf s else nan
  | nan, _ => nan
  | _, nan => nan

noncomputable def mul : EF → EF → EF
  | fin x, fin y => fin (x * y)
  | fin x, inf s => if x = 0 then nan else inf (xor s (decide (x < 0)))
  | inf s, fin x => if x = 0 then nan else inf (xor s (decide (x < 0)))
  | inf s, inf t => inf (xor s t)
  | nan, _ => nan
  | _, nan => nan

noncomputable def div : EF → EF → EF
  | fin x, fin y =>
    if y = 0 then (if x = 0 then nan else inf (decide (x < 0))) else fin (x / y)
  | fin _, inf _ => fin 0
  | inf s, fin x => inf (xor s (decide (x < 0)))
  | inf _, inf _ => nan
  | nan, _ => nan
  | _, nan => nan

noncomputable instance : Neg EF := ⟨neg⟩
noncomputable instance : Add EF := ⟨add⟩
noncomputable instance : Sub EF := ⟨fun x y => add x (neg y)⟩
noncomputable instance : Mul EF := ⟨mul⟩
noncomputable instance : Div EF := ⟨div⟩
noncomputable instance : Coe ℝ EF := ⟨fin⟩

/-- `math.Abs`. -/
noncomputable def abs : EF → EF
  | fin x => fin |x|
  | inf _ => inf false
  | nan => nan

/-- `math.Sqrt` is added where needed; `<` is false whenever an operand is NaN. -/
def lt : EF → EF → Prop
  | fin x, fin y => x < y
  | fin _, inf s => s = false
  | inf s, fin _ => s = true
  | inf s, inf t => s = true ∧ t = false
  | nan, _ => False
  | _, nan => False

instance : LT EF := ⟨lt⟩

/-- `math.IsNaN(x) || math.IsInf(x, 0)`. -/
def NotFinite : EF → Prop
  | fin _ => False
  | _ => True

@[simp] theorem fin_add (x y : ℝ) : (fin x + fin y : EF) = fin (x + y) := rfl
@[simp] theorem fin_sub (x y : ℝ) : (fin x - fin y : EF) = fin (x - y) := by
  show add (fin x) (neg (fin y)) = _
  simp [add, neg, sub_eq_add_neg]
@[simp] theorem fin_neg (x : ℝ) : (-fin x : EF) = fin (-x) := rfl
@[simp] theorem fin_mul (x y : ℝ) : (fin x * fin y : EF) = fin (x * y) := rfl
theorem fin_div (x y : ℝ) : (fin x / fin y : EF) =
    if y = 0 then (if x = 0 then nan else inf (decide (x < 0))) else fin (x / y) := rfl
theorem fin_div_ne {x y : ℝ} (h : y ≠ 0) : (fin x / fin y : EF) = fin (x / y) := by
  rw [fin_div, if_neg h]
@[simp] theorem fin_sub_nan (x : ℝ) : (fin x - nan : EF) = nan := rfl
@[simp] theorem fin_add_nan (x : ℝ) : (fin x + nan : EF) = nan := rfl
@[simp] theorem nan_add (x : EF) : (nan + x : EF) = nan := by cases x <;> rfl
@[simp] theorem nan_div (x : EF) : (nan / x : EF) = nan := by cases x <;> rfl
@[simp] theorem fin_sub_inf (x : ℝ) (s : Bool) : (fin x - inf s : EF) = inf (!s) := rfl
@[simp] theorem abs_fin (x : ℝ) : abs (fin x) = fin |x| := rfl
@[simp] theorem abs_nan : abs nan = nan := rfl
@[simp] theorem fin_lt (x y : ℝ) : (fin x < fin y : Prop) ↔ x < y := Iff.rfl
@[simp] theorem inf_lt_fin (s : Bool) (y : ℝ) : (inf s < fin y : Prop) ↔ s = true := Iff.rfl
@[simp] theorem nan_lt (y : EF) : ¬ (nan < y) := by intro h; cases y <;> exact h
@[simp] theorem notFinite_fin (x : ℝ) : ¬ NotFinite (fin x) := id
@[simp] theorem notFinite_inf (s : Bool) : NotFinite (inf s) := trivial
@[simp] theorem notFinite_nan : NotFinite nan := trivial
@[simp] theorem fin_inj {x y : ℝ} : (fin x = fin y) ↔ x = y := ⟨fun h => by cases h; rfl, fun h => h ▸ rfl⟩

/-- A relative error test `|p/q| < t` is only passed by a non-zero denominator. -/
theorem abs_div_lt {p q t : ℝ} : (abs (fin p / fin q) < fin t) ↔ q ≠ 0 ∧ |p / q| < t := by
  rw [fin_div]
  by_cases h : q = 0
  · simp only [h, if_true, ne_eq, not_true, false_and, iff_false]
    by_cases hp : p = 0
    · simp only [hp, if_true]; exact nan_lt _
    · simp only [hp, if_false]
      intro hc
      have : (false = true) := hc
      cases this
  · simp only [h, if_false, abs_fin, fin_lt, ne_eq, not_false_iff, true_and]

end EF

end Verif.Go
