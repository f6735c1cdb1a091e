import Verif.Go.Int
/-
Model of package easter (v3/easter/easter.go).
-/
namespace Verif.Model.Easter

open Verif.Go

/-- `Gregorian`.  v3/easter/easter.go:8-21. -/
def Gregorian (y : Int) : Int × Int :=
  let a := rem y 19
  let b := quo y 100
  let c := rem y 100
  let d := quo b 4
  let e := rem b 4
  let f := quo (b + 8) 25
  let g := quo (b - f + 1) 3
  let h := rem (19 * a + b - d - g + 15) 30
  let i := quo c 4
  let k := rem c 4
  let l := rem (32 + 2 * e + 2 * i - h - k) 7
  let m := quo (a + 11 * h + 22 * l) 451
  let n := h + l - 7 * m + 114
  (quo n 31, rem n 31 + 1)

/-- `Julian`.  v3/easter/easter.go:24-33. -/
def Julian (y : Int) : Int × Int :=
  let a := rem y 4
  let b := rem y 7
  let c := rem y 19
  let d := rem (19 * c + 15) 30
  let e := rem (2 * a + 4 * b - d + 34) 7
  let f := d + e + 114
  (quo f 31, rem f 31 + 1)

end Verif.Model.Easter
