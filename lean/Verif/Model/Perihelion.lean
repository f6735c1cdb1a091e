import Verif.Model.Interp
import Verif.Go.Angle
/-
Model of package perihelion (v3/perihelion/perihelion.go).  Exact real arithmetic.  The distance of the planet from the Sun,
`v.Position2000`, is a parameter R.  The crawl is given a number of rounds; `timeout` means that they did not suffice.
-/
set_option linter.dupNamespace false

namespace Verif.Model.Perihelion

open Verif.Go Verif.Model.Interp Classical Real

/-- `pf`.  v3/perihelion/perihelion.go:54-56. -/
noncomputable def pf (x : ℝ) : ℝ := ⌊x + 0.5⌋

/-- `af`.  v3/perihelion/perihelion.go:66-68. -/
noncomputable def af (x : ℝ) : ℝ := ⌊x⌋ + 0.5

/-- `ka`.  v3/perihelion/perihelion.go:93-102. -/
noncomputable def ka : List (ℝ × ℝ) :=
  [(4.15201, 2000.12), (1.62549, 2000.53), (0.99997, 2000.01), (0.53166, 2001.78), (0.0843, 2011.2), (0.03393, 2003.52),
   (0.0119, 2051.1), (0.00607, 2047.5)]

/-- `c`.  v3/perihelion/perihelion.go:104-113. -/
noncomputable def coef : List (List ℝ) :=
  [[2451590.257, 87.96934963], [2451738.233, 224.7008188, -0.0000000327], [2451547.507, 365.2596358, 0.0000000156],
   [2452195.026, 686.9957857, -0.0000001187], [2455636.936, 4332.897065, 0.0001367], [2452830.12, 10764.21676, 0.000827],
   [2470213.5, 30694.8767, -0.00541], [2468895.1, 60190.33, 0.03429]]

/-- `ec`.  v3/perihelion/perihelion.go:115-121. -/
noncomputable def ec : List (ℝ × ℝ) :=
  [(328.41, 132.788585), (316.13, 584.903153), (346.2, 450.380738), (136.95, 659.306737), (249.52, 329.653368)]

/-- `ep`.  v3/perihelion/perihelion.go:123. -/
noncomputable def ep : List ℝ := [1.278, -0.055, -0.091, -0.056, -0.045]

/-- `ea`.  v3/perihelion/perihelion.go:124. -/
noncomputable def ea : List ℝ := [-1.352, 0.061, 0.062, 0.029, 0.031]

/-- The time of event number k, the part of `ap` after rounding: Horner and, for the Earth, the periodic terms.
v3/perihelion/perihelion.go:71-74, 76-86.  Planet numbers Mercury 0 … Neptune 7, EMBary 8; `none` is the panic on another number. -/
noncomputable def apK (p : ℕ) (k : ℝ) (a : Bool) : Option ℝ :=
  let i := if p = 8 then 2 else p
  match coef[i]? with
  | none => none
  | some c =>
    match Horner k c with
    | none => none
    | some j =>
      if p = 2 then
        some ((List.zip (if a then ea else ep) ec).foldl (fun j t => j + t.1 * sin ((t.2.1 + t.2.2 * k) * π / 180)) j)
      else some j

/-- `ap`.  v3/perihelion/perihelion.go:70-87. -/
noncomputable def ap (p : ℕ) (y : ℝ) (a : Bool) (f : ℝ → ℝ) : Option ℝ :=
  let i := if p = 8 then 2 else p
  match ka[i]? with
  | none => none
  | some ab => apK p (f (ab.1 * (y - ab.2))) a

/-- `Perihelion`.  v3/perihelion/perihelion.go:50-52. -/
noncomputable def Perihelion (p : ℕ) (y : ℝ) : Option ℝ := ap p y false pf

/-- `Aphelion`.  v3/perihelion/perihelion.go:62-64. -/
noncomputable def Aphelion (p : ℕ) (y : ℝ) : Option ℝ := ap p y true af

/-- What the search does. -/
inductive Search where
  | done (jde r : ℝ)
  | panic
  | timeout

/-- The test for leaving the crawl.  v3/perihelion/perihelion.go:173-181. -/
def stop (a : Bool) (r0 r1 r2 : ℝ) : Prop := if a then r1 > r0 ∧ r1 > r2 else r1 < r0 ∧ r1 < r2

/-- The test for crawling forward, `rr[0] < rr[2] == a`.  v3/perihelion/perihelion.go:182. -/
def forward (a : Bool) (r0 r2 : ℝ) : Prop := r0 < r2 ↔ a = true

/-- The state of the crawl: (j0, j1, j2) and the three radii. -/
structure St where
  j0 : ℝ
  j1 : ℝ
  j2 : ℝ
  r0 : ℝ
  r1 : ℝ
  r2 : ℝ

/-- One step of the crawl.  v3/perihelion/perihelion.go:182-196. -/
noncomputable def step (R : ℝ → ℝ) (d : ℝ) (a : Bool) (s : St) : St :=
  if forward a s.r0 s.r2 then
    { j0 := s.j1, j1 := s.j2, j2 := s.j2 + d, r0 := s.r1, r1 := s.r2, r2 := R (s.j2 + d) }
  else
    { j2 := s.j1, j1 := s.j0, j0 := s.j0 - d, r2 := s.r1, r1 := s.r0, r0 := R (s.j0 - d) }

/-- The crawl: `none` when the rounds do not suffice.  v3/perihelion/perihelion.go:172-197. -/
noncomputable def crawl (R : ℝ → ℝ) (d : ℝ) (a : Bool) : ℕ → St → Option St
  | 0, _ => none
  | fuel + 1, s => if stop a s.r0 s.r1 s.r2 then some s else crawl R d a fuel (step R d a s)

/-- The state before the crawl.  v3/perihelion/perihelion.go:166-171. -/
noncomputable def start (R : ℝ → ℝ) (j1 d : ℝ) : St := ⟨j1 - d, j1, j1 + d, R (j1 - d), R j1, R (j1 + d)⟩

/-- `ap2a`.  v3/perihelion/perihelion.go:165-207. -/
noncomputable def ap2a (R : ℝ → ℝ) (fuel : ℕ) (j1 d : ℝ) (a : Bool) : Search :=
  match crawl R d a fuel (start R j1 d) with
  | none => .timeout
  | some s =>
    match NewLen3 s.j0 s.j2 [s.r0, s.r1, s.r2] with
    | .error _ => .panic
    | .ok l =>
      match l.Extremum with
      | .error _ => .panic
      | .ok (jde, r) => .done jde r

/-- `ap2`.  v3/perihelion/perihelion.go:152-163.  Mercury 0 … Neptune 7. -/
noncomputable def ap2 (R : ℝ → ℝ) (fuel : ℕ) (p : ℕ) (y d : ℝ) (a : Bool) (f : ℝ → ℝ) : Search :=
  match ap p y a f with
  | none => .panic
  | some j1 =>
    if p ≠ 7 then ap2a R fuel j1 d a
    else
      match ap2a R fuel (j1 - 5000) d a, ap2a R fuel (j1 + 5000) d a with
      | .done j0 r0, .done j2 r2 => if (r0 > r2) ↔ a = true then .done j0 r0 else .done j2 r2
      | .panic, _ => .panic
      | .timeout, _ => .timeout
      | .done _ _, .panic => .panic
      | .done _ _, .timeout => .timeout

end Verif.Model.Perihelion
