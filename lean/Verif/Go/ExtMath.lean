import Verif.Go.Ext
import Verif.Go.Angle
/-
Functions of Go's package math on extended floating point numbers.
-/
namespace Verif.Go.EF

/-- `math.Sqrt`: NaN for negative numbers. -/
noncomputable def sqrt : EF → EF
  | fin x => if x < 0 then nan else fin (Real.sqrt x)
  | inf false => inf false
  | inf true => nan
  | nan => nan

/-- `math.Atan`. -/
noncomputable def atan : EF → EF
  | fin x => fin (Real.arctan x)
  | inf false => fin (Real.pi / 2)
  | inf true => fin (-(Real.pi / 2))
  | nan => nan

/-- `math.Acos`: NaN outside [-1, 1]. -/
noncomputable def acos : EF → EF
  | fin x => if x < -1 ∨ 1 < x then nan else fin (Real.arccos x)
  | _ => nan

@[simp] theorem nan_mul (x : EF) : (nan * x : EF) = nan := by cases x <;> rfl
@[simp] theorem mul_nan (x : EF) : (x * nan : EF) = nan := by cases x <;> rfl
@[simp] theorem add_nan (x : EF) : (x + nan : EF) = nan := by cases x <;> rfl
@[simp] theorem nan_sub (x : EF) : (nan - x : EF) = nan := by cases x <;> rfl
@[simp] theorem sub_nan (x : EF) : (x - nan : EF) = nan := by cases x <;> rfl
theorem sqrt_fin {x : ℝ} (h : 0 ≤ x) : sqrt (fin x) = fin (Real.sqrt x) := by
  simp [sqrt, not_lt.2 h]
@[simp] theorem atan_fin (x : ℝ) : atan (fin x) = fin (Real.arctan x) := rfl

end Verif.Go.EF
