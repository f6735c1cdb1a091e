import Verif.Model.Vsop
/-
The layout of a VSOP87 file: sections of blocks, a block being a header line and its term lines.
-/
namespace Verif.Spec.Vsop

open Verif.Model.Vsop

/-- A block of the file: the power of time and the terms. -/
structure Block (F : Type) where
  power : ℕ
  terms : List (Term F)

/-- A header line of the coordinate ic ('1', '2' or '3') of a planet: version 2 in column 18, the name of the planet in columns 23–29, the coordinate
in column 42, the power in column 60, the number of terms in columns 61–67. -/
def IsHeader {F : Type} (lib : Lib F) (ic : UInt8) (ibody power count : ℕ) (line : Line) : Prop :=
  132 ≤ line.length ∧ byteAt line 41 = ic ∧ byteAt line 17 = 50 ∧ slice line 22 29 = bodyName ibody ∧
  (byteAt line 59).toNat = 48 + power ∧ atoi (lib.trim (slice line 60 67)) = some (count : ℤ)

/-- A term line: the three numbers in columns 80–97, 99–111, 112–131. -/
def IsTerm {F : Type} (lib : Lib F) (t : Term F) (line : Line) : Prop :=
  131 ≤ line.length ∧ lib.parseFloat (lib.trim (slice line 79 97)) = some t.a ∧
  lib.parseFloat (slice line 98 111) = some t.b ∧ lib.parseFloat (lib.trim (slice line 111 131)) = some t.c

/-- The lines of the blocks of one coordinate.  A block has at least one and at most 2047 terms, a power at most 5. -/
inductive IsSection {F : Type} (lib : Lib F) (ic : UInt8) (ibody : ℕ) : List (Block F) → List Line → Prop
  | nil : IsSection lib ic ibody [] []
  | cons {b : Block F} {header : Line} {termLines : List Line} {bs : List (Block F)} {rest : List Line} :
      IsHeader lib ic ibody b.power b.terms.length header → b.power ≤ 5 →
      1 ≤ b.terms.length → b.terms.length ≤ 2047 → List.Forall₂ (IsTerm lib) b.terms termLines →
      IsSection lib ic ibody bs rest → IsSection lib ic ibody (b :: bs) (header :: (termLines ++ rest))

/-- The series of a coordinate is that of the blocks: every block's terms at its power, nothing at other powers. -/
def Holds {F : Type} (c : Coeff F) (bs : List (Block F)) : Prop :=
  (∀ b ∈ bs, c b.power = b.terms) ∧ ∀ p, (∀ b ∈ bs, b.power ≠ p) → c p = []

/-- Joining lines by newline bytes. -/
def joinLines : List Line → List UInt8
  | [] => []
  | [l] => l
  | l :: ls => l ++ 10 :: joinLines ls

end Verif.Spec.Vsop
