import Mathlib.Algebra.Order.Group.Int
import Mathlib.Logic.Function.Basic
import Mathlib.Data.List.Basic
/-
Model of the VSOP87 loader, package planetposition (v3/planetposition/planetposition.go), on bytes.

Reading of the file is a parameter (`none`: ioutil.ReadFile failed).  Library functions: strings.Split and strconv.Atoi are
written out; strings.TrimSpace and strconv.ParseFloat are parameters (`Lib`), the first only assumed to strip ASCII blanks where a
concrete file is shown.  A Go slice expression or index out of range is the outcome `panic`; a loop that uses up the given
number of rounds is the outcome `diverge`; error texts are not modelled.
-/
namespace Verif.Model.Vsop

/-- A line: bytes without the newline. -/
abbrev Line := List UInt8

/-- One term of a series (`abc`).  v3/planetposition/planetposition.go:71-73. -/
structure Term (F : Type) where
  a : F
  b : F
  c : F

/-- One coordinate: series by power 0..5 (`coeff`).  v3/planetposition/planetposition.go:75. -/
abbrev Coeff (F : Type) := ℕ → List (Term F)

/-- Library functions of package strings and strconv. -/
structure Lib (F : Type) where
  trim : Line → Line
  parseFloat : Line → Option F

/-- What a call does. -/
inductive Outcome (α : Type) where
  | ok (a : α)
  | error
  | panic
  | diverge

/-- `strings.Split(s, "\n")`. -/
def splitLines : List UInt8 → List Line
  | [] => [[]]
  | b :: bs =>
    if b = 10 then [] :: splitLines bs
    else match splitLines bs with
      | [] => [[b]]
      | l :: ls => (b :: l) :: ls

/-- The value of a digit byte. -/
def digit (b : UInt8) : Option ℕ := if 48 ≤ b.toNat ∧ b.toNat ≤ 57 then some (b.toNat - 48) else none

/-- Decimal digits, at least one. -/
def digits (acc : ℕ) : List UInt8 → Option ℕ
  | [] => some acc
  | b :: bs => match digit b with
    | none => none
    | some d => digits (10 * acc + d) bs

/-- `strconv.Atoi` for strings short enough not to overflow (the field has at most 7 bytes). -/
def atoi : List UInt8 → Option ℤ
  | [] => none
  | b :: bs =>
    if b = 43 then (if bs = [] then none else (digits 0 bs).map Int.ofNat)
    else if b = 45 then (if bs = [] then none else (digits 0 bs).map fun k => -Int.ofNat k)
    else (digits 0 (b :: bs)).map Int.ofNat

/-- `line[i]`, for an index in range. -/
def byteAt (l : Line) (i : ℕ) : UInt8 := l.getD i 0

/-- `line[i:j]`, for bounds in range. -/
def slice {α : Type} (l : List α) (i j : ℕ) : List α := (l.drop i).take (j - i)

/-- `ext` has one entry per planet; the names `b7`, padded to 7 bytes.  v3/planetposition/planetposition.go:59-68. -/
def bodyName : ℕ → Line
  | 0 => [77, 69, 82, 67, 85, 82, 89]
  | 1 => [86, 69, 78, 85, 83, 32, 32]
  | 2 => [69, 65, 82, 84, 72, 32, 32]
  | 3 => [77, 65, 82, 83, 32, 32, 32]
  | 4 => [74, 85, 80, 73, 84, 69, 82]
  | 5 => [83, 65, 84, 85, 82, 78, 32]
  | 6 => [85, 82, 65, 78, 85, 83, 32]
  | _ => [78, 69, 80, 84, 85, 78, 69]

/-- The loop over the term lines, with `acc` the terms read so far (in cbuf[:cx]).  v3/planetposition/planetposition.go:160-181. -/
def readTerms {F : Type} (lib : Lib F) : List Line → List (Term F) → Outcome (List (Term F))
  | [], acc => .ok acc
  | line :: rest, acc =>
    if acc.length ≥ 2047 then .panic
    else if line.length < 97 then .panic
    else match lib.parseFloat (lib.trim (slice line 79 97)) with
      | none => .error
      | some a =>
        if line.length < 111 then .panic
        else match lib.parseFloat (slice line 98 111) with
          | none => .error
          | some b =>
            if line.length < 131 then .panic
            else match lib.parseFloat (lib.trim (slice line 111 131)) with
              | none => .error
              | some c => readTerms lib rest (acc ++ [⟨a, b, c⟩])

/-- `coeff.parse`: (n, series).  v3/planetposition/planetposition.go:130-186. -/
def parse {F : Type} (lib : Lib F) (ic : UInt8) (ibody : ℕ) (lines : List Line) : ℕ → ℕ → Coeff F → Outcome (ℕ × Coeff F)
  | 0, _, _ => .diverge
  | fuel + 1, n, c =>
    if n < lines.length then
      let line := lines.getD n []
      if line.length < 132 then .ok (n, c)
      else if byteAt line 41 ≠ ic then .ok (n, c)
      else if byteAt line 17 ≠ 50 then .error
      else if slice line 22 29 ≠ bodyName ibody then .error
      else
        let it := byteAt line 59 - 48
        match atoi (lib.trim (slice line 60 67)) with
        | none => .error
        | some cnt =>
          if cnt = 0 then parse lib ic ibody lines fuel n c
          else if cnt > (lines.length : ℤ) - n then .error
          else if cnt < 0 ∨ (n : ℤ) + 1 + cnt > lines.length then .panic
          else match readTerms lib (slice lines (n + 1) (n + 1 + cnt.toNat)) [] with
            | .error => .error
            | .panic => .panic
            | .diverge => .diverge
            | .ok ts =>
              if 6 ≤ it.toNat then .panic
              else parse lib ic ibody lines fuel (n + 1 + cnt.toNat) (Function.update c it.toNat ts)
    else .ok (n, c)

/-- Continue with a result. -/
def Outcome.bind {α β : Type} (o : Outcome α) (f : α → Outcome β) : Outcome β :=
  match o with
  | .ok a => f a
  | .error => .error
  | .panic => .panic
  | .diverge => .diverge

/-- `V87Planet`. -/
structure V87Planet (F : Type) where
  l : Coeff F
  b : Coeff F
  r : Coeff F

/-- The empty series. -/
def noTerms {F : Type} : Coeff F := fun _ => []

/-- `LoadPlanetPath` on the lines of the file.  v3/planetposition/planetposition.go:112-127. -/
def loadLines {F : Type} (lib : Lib F) (fuel : ℕ) (ibody : ℕ) (lines : List Line) : Outcome (V87Planet F) :=
  (parse lib 49 ibody lines fuel 0 noTerms).bind fun l =>
  (parse lib 50 ibody lines fuel l.1 noTerms).bind fun b =>
  (parse lib 51 ibody lines fuel b.1 noTerms).bind fun r =>
  .ok ⟨l.2, b.2, r.2⟩

/-- `LoadPlanetPath`.  v3/planetposition/planetposition.go:104-128. -/
def LoadPlanetPath {F : Type} (lib : Lib F) (fuel : ℕ) (ibody : ℤ) (file : Option (List UInt8)) : Outcome (V87Planet F) :=
  if ibody < 0 ∨ ibody ≥ 8 then .error
  else match file with
    | none => .error
    | some data => loadLines lib fuel ibody.toNat (splitLines data)

end Verif.Model.Vsop
