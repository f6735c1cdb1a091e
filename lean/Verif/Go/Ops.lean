import Verif.Go.Angle
/-
Arithmetic as a parameter: the operations of float64 and of package math which the code of the pointer taking functions
uses.  A model written over these operations holds for every arithmetic, rounded float64 included.
The instance for ℝ is the exact arithmetic used for the geometric properties.
-/
namespace Verif.Go

/-- The elementary functions of package math, constants, comparison and the reduction of unit.RAFromRad / Angle.Mod1. -/
class Ops (F : Type) where
  lit : ℚ → F
  pi : F
  sin : F → F
  cos : F → F
  tan : F → F
  asin : F → F
  acos : F → F
  atan2 : F → F → F
  hypot : F → F → F
  abs : F → F
  mod1 : F → F
  lt : F → F → Prop
  ltDec : DecidableRel lt
  eq : F → F → Prop
  eqDec : DecidableRel eq

instance {F : Type} [Ops F] : DecidableRel (Ops.lt (F := F)) := Ops.ltDec
instance {F : Type} [Ops F] : DecidableRel (Ops.eq (F := F)) := Ops.eqDec

noncomputable instance : Ops ℝ where
  lit q := (q : ℝ)
  pi := Real.pi
  sin := Real.sin
  cos := Real.cos
  tan := Real.tan
  asin := Real.arcsin
  acos := Real.arccos
  atan2 := atan2
  hypot x y := Real.sqrt (x ^ 2 + y ^ 2)
  abs x := |x|
  mod1 := mod1
  lt x y := x < y
  ltDec := fun _ _ => Classical.propDecidable _
  eq x y := x = y
  eqDec := fun _ _ => Classical.propDecidable _

@[simp] theorem lit_real (q : ℚ) : (Ops.lit q : ℝ) = (q : ℝ) := rfl
@[simp] theorem pi_real : (Ops.pi : ℝ) = Real.pi := rfl
@[simp] theorem sin_real (x : ℝ) : Ops.sin x = Real.sin x := rfl
@[simp] theorem cos_real (x : ℝ) : Ops.cos x = Real.cos x := rfl
@[simp] theorem tan_real (x : ℝ) : Ops.tan x = Real.tan x := rfl
@[simp] theorem asin_real (x : ℝ) : Ops.asin x = Real.arcsin x := rfl
@[simp] theorem acos_real (x : ℝ) : Ops.acos x = Real.arccos x := rfl
@[simp] theorem atan2_real (x y : ℝ) : Ops.atan2 x y = atan2 x y := rfl
@[simp] theorem hypot_real (x y : ℝ) : Ops.hypot x y = Real.sqrt (x ^ 2 + y ^ 2) := rfl
@[simp] theorem abs_real (x : ℝ) : Ops.abs x = |x| := rfl
@[simp] theorem mod1_real (x : ℝ) : Ops.mod1 x = mod1 x := rfl
@[simp] theorem lt_real (x y : ℝ) : Ops.lt x y ↔ x < y := Iff.rfl
@[simp] theorem eq_real (x y : ℝ) : Ops.eq x y ↔ x = y := Iff.rfl

end Verif.Go
