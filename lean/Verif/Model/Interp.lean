import Verif.Go.Ext
import Verif.Go.Real
/-
Model of package interp (v3/interp/interp.go) and of base.Horner.
`float64` is ideal (real numbers); where the code tests for Inf and NaN the
extended numbers `EF` are used.
-/
namespace Verif.Model

open Verif.Go Classical

/-- `base.Horner`: `none` is the index panic on the empty list.  v3/base/math.go:27-35. -/
def Horner {α : Type} [Add α] [Mul α] (x : α) (c : List α) : Option α :=
  match c.reverse with
  | [] => none
  | y :: rest => some (rest.foldl (fun y ci => y * x + ci) y)

namespace Interp

/-- The error values.  v3/interp/interp.go:33-43. -/
inductive Err where
  | Not3 | Not4 | Not5 | NoXRange | NOutOfRange | XOutOfRange | NoExtremum
  | ExtremumOutside | ZeroOutside | NoConverge
deriving DecidableEq

/-- `Len3`.  v3/interp/interp.go:46-51. -/
structure Len3 where
  x1 : ℝ
  x3 : ℝ
  y : List ℝ
  a : ℝ
  b : ℝ
  c : ℝ
  abSum : ℝ
  xSum : ℝ
  xDiff : ℝ

/-- `NewLen3`.  v3/interp/interp.go:57-78. -/
noncomputable def NewLen3 (x1 x3 : ℝ) (y : List ℝ) : Except Err Len3 :=
  match y with
  | [y0, y1, y2] =>
    if x3 = x1 then .error .NoXRange
    else
      let a := y1 - y0
      let b := y2 - y1
      .ok { x1 := x1, x3 := x3, y := [y0, y1, y2], a := a, b := b, c := b - a,
            abSum := a + b, xSum := x3 + x1, xDiff := x3 - x1 }
  | _ => .error .Not3

/-- `d.y[1]`; the index is in range for every object made by `NewLen3`. -/
noncomputable def Len3.y1 (d : Len3) : ℝ := d.y.getD 1 0

/-- Outcome of an operation that may panic on a slice bound. -/
inductive Out (α : Type) where
  | ret (a : α)
  | panic

/-- Go slice expression `y[lo:hi]` on a slice with capacity equal to its length. -/
def slice (y : List ℝ) (lo hi : Int) : Out (List ℝ) :=
  if 0 ≤ lo ∧ lo ≤ hi ∧ hi ≤ y.length then .ret ((y.drop lo.toNat).take (hi - lo).toNat) else .panic

/-- `Len3ForInterpolateX`.  v3/interp/interp.go:92-109.
Simplification: the conversion to int of a value beyond the int range is not modelled. -/
noncomputable def Len3ForInterpolateX (x x1 xn : ℝ) (y : List ℝ) : Out (Except Err Len3) :=
  if y.length > 3 then
    let interval := (xn - x1) / ((y.length : ℝ) - 1)
    if interval = 0 then .ret (.error .NoXRange)
    else
      let nx := trunc ((x - x1) / interval + 0.5)
      let nx := if nx < 1 then 1 else if nx > (y.length : Int) - 2 then (y.length : Int) - 2 else nx
      match slice y (nx - 1) (nx + 2) with
      | .panic => .panic
      | .ret y' => .ret (NewLen3 (x1 + ((nx : ℝ) - 1) * interval) (x1 + ((nx : ℝ) + 1) * interval) y')
  else .ret (NewLen3 x1 xn y)

/-- `Len3.InterpolateN`.  v3/interp/interp.go:134-136. -/
noncomputable def Len3.InterpolateN (d : Len3) (n : ℝ) : ℝ := d.y1 + n * 0.5 * (d.abSum + n * d.c)

/-- `Len3.InterpolateX`.  v3/interp/interp.go:112-115. -/
noncomputable def Len3.InterpolateX (d : Len3) (x : ℝ) : ℝ :=
  d.InterpolateN ((2 * x - d.xSum) / d.xDiff)

/-- `Len3.InterpolateNStrict`.  v3/interp/interp.go:142-147. -/
noncomputable def Len3.InterpolateNStrict (d : Len3) (n : ℝ) : Except Err ℝ :=
  if n < -1 ∨ n > 1 then .error .NOutOfRange else .ok (d.InterpolateN n)

/-- Renaming of the error in `InterpolateXStrict`.  v3/interp/interp.go:122-124, 297-299. -/
def xErr : Except Err ℝ → Except Err ℝ
  | .error .NOutOfRange => .error .XOutOfRange
  | r => r

/-- `Len3.InterpolateXStrict`.  v3/interp/interp.go:119-126. -/
noncomputable def Len3.InterpolateXStrict (d : Len3) (x : ℝ) : Except Err ℝ :=
  xErr (d.InterpolateNStrict ((2 * x - d.xSum) / d.xDiff))

/-- `Len3.Extremum`.  v3/interp/interp.go:153-164. -/
noncomputable def Len3.Extremum (d : Len3) : Except Err (ℝ × ℝ) :=
  if d.c = 0 then .error .NoExtremum
  else
    let n := d.abSum / (-2 * d.c)
    if n < -1 ∨ n > 1 then .error .ExtremumOutside
    else .ok (0.5 * (d.xSum + d.xDiff * n), d.y1 - (d.abSum * d.abSum) / (8 * d.c))

/-- `iterate`: `fuel` is the number of iterations left.  v3/interp/interp.go:207-219. -/
noncomputable def iterateLoop (f : EF → EF) : Nat → EF → Option EF
  | 0, _ => none
  | fuel + 1, n0 =>
    let n1 := f n0
    if n1.NotFinite then none
    else if EF.abs ((n1 - n0) / n0) < .fin (1 / 10 ^ 15) then some n1
    else iterateLoop f fuel n1

noncomputable def iterate (n0 : EF) (f : EF → EF) : Option EF := iterateLoop f 50 n0

/-- The iteration functions of `Len3.Zero`.  v3/interp/interp.go:184-194. -/
noncomputable def Len3.zeroF (d : Len3) (strong : Bool) (n0 : EF) : EF :=
  if strong then
    n0 - (.fin 2 * .fin d.y1 + n0 * (.fin d.abSum + .fin d.c * n0)) / (.fin d.abSum + .fin 2 * .fin d.c * n0)
  else (.fin (-2) * .fin d.y1) / (.fin d.abSum + .fin d.c * n0)

/-- `Len3.Zero`.  v3/interp/interp.go:182-203.  (`iterate` only returns finite values.) -/
noncomputable def Len3.Zero (d : Len3) (strong : Bool) : Except Err ℝ :=
  match iterate (.fin 0) (d.zeroF strong) with
  | some (.fin n0) =>
    if n0 > 1 ∨ n0 < -1 then .error .ZeroOutside else .ok (0.5 * (d.xSum + d.xDiff * n0))
  | _ => .error .NoConverge

/-- `Len4Half`.  v3/interp/interp.go:222-228. -/
noncomputable def Len4Half (y : List ℝ) : Except Err ℝ :=
  match y with
  | [y0, y1, y2, y3] => .ok ((9 * (y1 + y2) - y0 - y3) / 16)
  | _ => .error .Not4

/-- `Len5`.  v3/interp/interp.go:231-240. -/
structure Len5 where
  x1 : ℝ
  x5 : ℝ
  y : List ℝ
  a : ℝ
  b : ℝ
  c : ℝ
  d : ℝ
  e : ℝ
  f : ℝ
  g : ℝ
  h : ℝ
  j : ℝ
  k : ℝ
  y3 : ℝ
  xSum : ℝ
  xDiff : ℝ
  interpCoeff : List ℝ

/-- `NewLen5`.  v3/interp/interp.go:246-284. -/
noncomputable def NewLen5 (x1 x5 : ℝ) (y : List ℝ) : Except Err Len5 :=
  match y with
  | [y0, y1, y2, y3, y4] =>
    if x5 = x1 then .error .NoXRange
    else
      let a := y1 - y0
      let b := y2 - y1
      let c := y3 - y2
      let d := y4 - y3
      let e := b - a
      let f := c - b
      let g := d - c
      let h := f - e
      let j := g - f
      let k := j - h
      .ok { x1 := x1, x5 := x5, y := [y0, y1, y2, y3, y4], a := a, b := b, c := c, d := d, e := e,
            f := f, g := g, h := h, j := j, k := k, y3 := y2, xSum := x5 + x1, xDiff := x5 - x1,
            interpCoeff := [y2, (b + c) / 2 - (h + j) / 12, f / 2 - k / 24, (h + j) / 12, k / 24] }
  | _ => .error .Not5

/-- `base.Horner` on a list known to be non-empty. -/
def hornerD {α : Type} [Add α] [Mul α] (x : α) (c : List α) (dflt : α) : α := (Horner x c).getD dflt

/-- `Len5.InterpolateN`.  v3/interp/interp.go:307-309. -/
noncomputable def Len5.InterpolateN (d : Len5) (n : ℝ) : ℝ := hornerD n d.interpCoeff 0

/-- `Len5.InterpolateX`.  v3/interp/interp.go:287-290. -/
noncomputable def Len5.InterpolateX (d : Len5) (x : ℝ) : ℝ :=
  d.InterpolateN ((4 * x - 2 * d.xSum) / d.xDiff)

/-- `Len5.InterpolateNStrict`.  v3/interp/interp.go:315-320. -/
noncomputable def Len5.InterpolateNStrict (d : Len5) (n : ℝ) : Except Err ℝ :=
  if n < -1 ∨ n > 1 then .error .NOutOfRange else .ok (hornerD n d.interpCoeff 0)

/-- `Len5.InterpolateXStrict`.  v3/interp/interp.go:294-301. -/
noncomputable def Len5.InterpolateXStrict (d : Len5) (x : ℝ) : Except Err ℝ :=
  xErr (d.InterpolateNStrict ((4 * x - 2 * d.xSum) / d.xDiff))

/-- The iteration function of `Len5.Extremum`.  v3/interp/interp.go:329-341. -/
noncomputable def Len5.extF (d : Len5) (n0 : EF) : EF :=
  hornerD n0 [.fin (6 * (d.b + d.c) - d.h - d.j), .fin 0, .fin (3 * (d.h + d.k)), .fin (2 * d.k)] .nan /
    .fin (d.k - 12 * d.f)

/-- `Len5.Extremum`.  v3/interp/interp.go:327-351. -/
noncomputable def Len5.Extremum (d : Len5) : Except Err (ℝ × ℝ) :=
  if d.k - 12 * d.f = 0 then .error .ExtremumOutside
  else
    match iterate (.fin 0) d.extF with
    | some (.fin n0) =>
      if n0 < -2 ∨ n0 > 2 then .error .ExtremumOutside
      else .ok (0.5 * d.xSum + 0.25 * d.xDiff * n0, hornerD n0 d.interpCoeff 0)
    | _ => .error .NoConverge

/-- The iteration functions of `Len5.Zero`.  v3/interp/interp.go:371-396. -/
noncomputable def Len5.zeroF (d : Len5) (strong : Bool) (n0 : EF) : EF :=
  if strong then
    let M := d.k / 24
    let N := (d.h + d.j) / 12
    let P := d.f / 2 - M
    let Q := (d.b + d.c) / 2 - N
    n0 - hornerD n0 [.fin d.y3, .fin Q, .fin P, .fin N, .fin M] .nan /
      hornerD n0 [.fin Q, .fin (2 * P), .fin (3 * N), .fin (4 * M)] .nan
  else
    hornerD n0 [.fin (-24 * d.y3), .fin 0, .fin (d.k - 12 * d.f), .fin (-2 * (d.h + d.j)), .fin (-d.k)] .nan /
      .fin (12 * (d.b + d.c) - 2 * (d.h + d.j))

/-- `Len5.Zero`.  v3/interp/interp.go:369-406. -/
noncomputable def Len5.Zero (d : Len5) (strong : Bool) : Except Err ℝ :=
  match iterate (.fin 0) (d.zeroF strong) with
  | some (.fin n0) =>
    if n0 > 2 ∨ n0 < -2 then .error .ZeroOutside else .ok (0.5 * d.xSum + 0.25 * d.xDiff * n0)
  | _ => .error .NoConverge

/-- `Lagrange`.  v3/interp/interp.go:414-429.  The table is given as its length and an indexing
function. -/
noncomputable def Lagrange (x : ℝ) (n : Nat) (X Y : Nat → ℝ) : ℝ :=
  (List.range n).foldl (fun sum i =>
    let prod := (List.range n).foldl (fun prod j =>
      if i ≠ j then prod * ((x - X j) / (X i - X j)) else prod) 1
    sum + Y i * prod) 0

/-- State of the inner loop of `LagrangePoly`: the array `prod`, `n` and `den`. -/
structure LPState where
  prod : Nat → ℝ
  n : Nat
  den : ℝ

/-- One round of the `j` loop.  v3/interp/interp.go:451-461. -/
noncomputable def lpStep (X : Nat → ℝ) (last i : Nat) (s : LPState) (j : Nat) : LPState :=
  if i ≠ j then
    let xj := X j
    let p1 := Function.update s.prod (s.n - 1) (s.prod s.n * -xj)
    let p2 := (List.range' s.n (last - s.n)).foldl
      (fun p k => Function.update p k (p k - p (k + 1) * xj)) p1
    { prod := p2, n := s.n - 1, den := s.den * (X i - xj) }
  else s

/-- One round of the `i` loop; the array `prod` is carried over.  v3/interp/interp.go:445-465. -/
noncomputable def lpOuter (len : Nat) (X Y : Nat → ℝ) (s : (Nat → ℝ) × (Nat → ℝ)) (i : Nat) :
    (Nat → ℝ) × (Nat → ℝ) :=
  let last := len - 1
  let st := (List.range len).foldl (lpStep X last i)
    { prod := Function.update s.2 last 1, n := last, den := 1 }
  (fun j => s.1 j + Y i * st.prod j / st.den, st.prod)

/-- `LagrangePoly`.  v3/interp/interp.go:439-467. -/
noncomputable def LagrangePoly (len : Nat) (X Y : Nat → ℝ) : List ℝ :=
  let r := (List.range len).foldl (lpOuter len X Y) (fun _ => 0, fun _ => 0)
  (List.range len).map r.1

end Interp
end Verif.Model
