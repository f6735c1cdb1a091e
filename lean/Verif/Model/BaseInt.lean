import Verif.Go.Int
/-
Model of the integer part of package base (v3/base/math.go).
-/
namespace Verif.Model

open Verif.Go

/-- The value computed by `FloorDiv` / `FloorDiv64` for a non-zero divisor.
v3/base/math.go:42-48 and 55-61 (the two bodies are identical). -/
def floorDiv (x y : Int) : Int :=
  let q := quo x y
  if (decide (x < 0) != decide (y < 0)) && (rem x y != 0) then q - 1 else q

/-- `base.FloorDiv` with its panic on a zero divisor.  v3/base/math.go:42-48.
Simplification: `int` is unbounded. -/
def FloorDiv (x y : Int) : Option Int :=
  match quo? x y with
  | none => none
  | some q =>
    match rem? x y with
    | none => none
    | some r =>
      if (decide (x < 0) != decide (y < 0)) && (r != 0) then some (q - 1) else some q

/-- `base.FloorDiv64` in two's complement 64 bit arithmetic, non-zero divisor.
v3/base/math.go:55-61.  `Int64` division and remainder are truncating and
`MinInt64 / -1` wraps, exactly as in the Go specification. -/
def FloorDiv64w (x y : Int64) : Option Int64 :=
  if y = 0 then none
  else
    let q := x / y
    if (decide (x < 0) != decide (y < 0)) && (x % y != 0) then some (q - 1) else some q

end Verif.Model
