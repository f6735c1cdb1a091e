import Verif.Lemmas.Vsop

/-! Properties C53–C55: the loader of VSOP87 files. -/

namespace Verif.Props

open Verif.Model.Vsop Verif.Spec.Vsop Verif.Lemmas

variable {F : Type}

theorem bind_eq_diverge {α β : Type} {o : Outcome α} {f : α → Outcome β} (h : o.bind f = .diverge) :
    o = .diverge ∨ ∃ a, o = .ok a ∧ f a = .diverge := by
  cases o <;> simp_all [Outcome.bind]

theorem bind_eq_panic {α β : Type} {o : Outcome α} {f : α → Outcome β} (h : o.bind f = .panic) :
    o = .panic ∨ ∃ a, o = .ok a ∧ f a = .panic := by
  cases o <;> simp_all [Outcome.bind]

/-- C53, the part that holds: if no line long enough to be a header announces zero terms, the loader returns, after at most as many rounds
as there are lines.  Missing: headers announcing zero terms, see the violation. -/
theorem C53_terminates_partial (lib : Lib F) (ibody : ℤ) (data : List UInt8)
    (h : ∀ l ∈ splitLines data, 132 ≤ l.length → atoi (lib.trim (slice l 60 67)) ≠ some 0) :
    ∀ fuel, (splitLines data).length < fuel → LoadPlanetPath lib fuel ibody (some data) ≠ .diverge := by
  intro fuel hf hd
  unfold LoadPlanetPath at hd
  by_cases hb : ibody < 0 ∨ ibody ≥ 8
  · rw [if_pos hb] at hd; cases hd
  rw [if_neg hb] at hd
  dsimp only at hd
  unfold loadLines at hd
  have hp := fun ic n (c : Coeff F) => parse_ne_diverge lib ic ibody.toNat (splitLines data) h fuel n c (by omega) (by omega)
  rcases bind_eq_diverge hd with h1 | ⟨a, -, hd⟩
  · exact hp _ _ _ h1
  rcases bind_eq_diverge hd with h1 | ⟨b, -, hd⟩
  · exact hp _ _ _ h1
  rcases bind_eq_diverge hd with h1 | ⟨r, -, hd⟩
  · exact hp _ _ _ h1
  · cases hd

/-- A header line of 132 bytes: version 2, coordinate ic, planet, power digit, 7 byte count field. -/
def headerBytes (ic : UInt8) (ibody : ℕ) (power : UInt8) (count : Line) : Line :=
  List.replicate 17 32 ++ [50] ++ List.replicate 4 32 ++ bodyName ibody ++ List.replicate 12 32 ++ [ic] ++
    List.replicate 17 32 ++ [power] ++ count ++ List.replicate 65 32

/-- C53.  A file consisting of one header that announces zero terms is never left: the loader runs forever, for any library with
TrimSpace("      0") = "0". -/
theorem C53_zero_terms_violation (lib : Lib F) (ht : lib.trim [32, 32, 32, 32, 32, 32, 48] = [48]) :
    ∀ fuel, LoadPlanetPath lib fuel 3 (some (headerBytes 49 3 48 [32, 32, 32, 32, 32, 32, 48])) = .diverge := by
  intro fuel
  have hs : splitLines (headerBytes 49 3 48 [32, 32, 32, 32, 32, 32, 48]) = [headerBytes 49 3 48 [32, 32, 32, 32, 32, 32, 48]] :=
    splitLines_noNewline (by decide +kernel)
  have hp : ∀ f (c : Coeff F), parse lib 49 3 [headerBytes 49 3 48 [32, 32, 32, 32, 32, 32, 48]] f 0 c = .diverge := by
    intro f
    induction f with
    | zero => intro c; rfl
    | succ f ih =>
      intro c
      rw [parse]
      have e1 : (headerBytes 49 3 48 [32, 32, 32, 32, 32, 32, 48]).length = 132 := by decide +kernel
      have e2 : byteAt (headerBytes 49 3 48 [32, 32, 32, 32, 32, 32, 48]) 41 = 49 := by decide +kernel
      have e3 : byteAt (headerBytes 49 3 48 [32, 32, 32, 32, 32, 32, 48]) 17 = 50 := by decide +kernel
      have e4 : slice (headerBytes 49 3 48 [32, 32, 32, 32, 32, 32, 48]) 22 29 = bodyName 3 := by decide +kernel
      have e5 : slice (headerBytes 49 3 48 [32, 32, 32, 32, 32, 32, 48]) 60 67 = [32, 32, 32, 32, 32, 32, 48] := by decide +kernel
      have e6 : atoi [48] = some 0 := by decide +kernel
      simp only [List.length_singleton, Nat.lt_one_iff, if_true, List.getD_cons_zero, e1, e2, e3, e4, e5, ht, e6, ih]
      simp
  unfold LoadPlanetPath loadLines
  dsimp only
  rw [hs]
  simp [hp, Outcome.bind]

/-- C54, the part that holds: a file whose headers announce at most 2047 terms and a power at most 5, whose term lines have at least 131
bytes and which does not end exactly one line short, never makes the loader panic; whatever else is wrong with it is an error or ends the reading.
Missing: the violations below. -/
theorem C54_no_panic_partial (lib : Lib F) (ibody : ℤ) (data : List UInt8) (h : Safe lib (splitLines data)) :
    ∀ fuel, LoadPlanetPath lib fuel ibody (some data) ≠ .panic := by
  intro fuel hd
  unfold LoadPlanetPath at hd
  by_cases hb : ibody < 0 ∨ ibody ≥ 8
  · rw [if_pos hb] at hd; cases hd
  rw [if_neg hb] at hd
  dsimp only at hd
  unfold loadLines at hd
  have hp := fun ic n (c : Coeff F) => parse_ne_panic lib ic ibody.toNat (splitLines data) h fuel n c
  rcases bind_eq_panic hd with h1 | ⟨a, -, hd⟩
  · exact hp _ _ _ h1
  rcases bind_eq_panic hd with h1 | ⟨b, -, hd⟩
  · exact hp _ _ _ h1
  rcases bind_eq_panic hd with h1 | ⟨r, -, hd⟩
  · exact hp _ _ _ h1
  · cases hd

/-- C54.  An invalid planet number and an unreadable file are errors. -/
theorem C54_errors (lib : Lib F) (fuel : ℕ) (ibody : ℤ) (file : Option (List UInt8))
    (h : ibody < 0 ∨ 8 ≤ ibody ∨ file = none) : LoadPlanetPath lib fuel ibody file = .error := by
  unfold LoadPlanetPath
  rcases h with h | h | h
  · rw [if_pos (Or.inl h)]
  · rw [if_pos (Or.inr h)]
  · subst h; split_ifs <;> rfl

/-- C54.  A file cut off after a header announcing one term (no term line, no final newline) makes the loader panic instead of returning
"Unexpected end of file". -/
theorem C54_truncated_violation (lib : Lib F) (ht : lib.trim [32, 32, 32, 32, 32, 32, 49] = [49]) :
    ∀ fuel, 0 < fuel → LoadPlanetPath lib fuel 3 (some (headerBytes 49 3 48 [32, 32, 32, 32, 32, 32, 49])) = .panic := by
  intro fuel hf
  obtain ⟨f, rfl⟩ : ∃ f, fuel = f + 1 := ⟨fuel - 1, by omega⟩
  have hs : splitLines (headerBytes 49 3 48 [32, 32, 32, 32, 32, 32, 49]) = [headerBytes 49 3 48 [32, 32, 32, 32, 32, 32, 49]] :=
    splitLines_noNewline (by decide +kernel)
  have hp : ∀ (c : Coeff F), parse lib 49 3 [headerBytes 49 3 48 [32, 32, 32, 32, 32, 32, 49]] (f + 1) 0 c = .panic := by
    intro c
    rw [parse]
    have e1 : (headerBytes 49 3 48 [32, 32, 32, 32, 32, 32, 49]).length = 132 := by decide +kernel
    have e2 : byteAt (headerBytes 49 3 48 [32, 32, 32, 32, 32, 32, 49]) 41 = 49 := by decide +kernel
    have e3 : byteAt (headerBytes 49 3 48 [32, 32, 32, 32, 32, 32, 49]) 17 = 50 := by decide +kernel
    have e4 : slice (headerBytes 49 3 48 [32, 32, 32, 32, 32, 32, 49]) 22 29 = bodyName 3 := by decide +kernel
    have e5 : slice (headerBytes 49 3 48 [32, 32, 32, 32, 32, 32, 49]) 60 67 = [32, 32, 32, 32, 32, 32, 49] := by decide +kernel
    have e6 : atoi [49] = some 1 := by decide +kernel
    simp [e1, e2, e3, e4, e5, ht, e6]
  unfold LoadPlanetPath loadLines
  dsimp only
  rw [hs]
  simp [hp, Outcome.bind]

/-- C54.  A header with a negative count makes the loader panic. -/
theorem C54_negative_violation (lib : Lib F) (ht : lib.trim [32, 32, 32, 32, 32, 45, 49] = [45, 49]) :
    ∀ fuel, 0 < fuel → LoadPlanetPath lib fuel 3 (some (headerBytes 49 3 48 [32, 32, 32, 32, 32, 45, 49])) = .panic := by
  intro fuel hf
  obtain ⟨f, rfl⟩ : ∃ f, fuel = f + 1 := ⟨fuel - 1, by omega⟩
  have hs : splitLines (headerBytes 49 3 48 [32, 32, 32, 32, 32, 45, 49]) = [headerBytes 49 3 48 [32, 32, 32, 32, 32, 45, 49]] :=
    splitLines_noNewline (by decide +kernel)
  have hp : ∀ (c : Coeff F), parse lib 49 3 [headerBytes 49 3 48 [32, 32, 32, 32, 32, 45, 49]] (f + 1) 0 c = .panic := by
    intro c
    rw [parse]
    have e1 : (headerBytes 49 3 48 [32, 32, 32, 32, 32, 45, 49]).length = 132 := by decide +kernel
    have e2 : byteAt (headerBytes 49 3 48 [32, 32, 32, 32, 32, 45, 49]) 41 = 49 := by decide +kernel
    have e3 : byteAt (headerBytes 49 3 48 [32, 32, 32, 32, 32, 45, 49]) 17 = 50 := by decide +kernel
    have e4 : slice (headerBytes 49 3 48 [32, 32, 32, 32, 32, 45, 49]) 22 29 = bodyName 3 := by decide +kernel
    have e5 : slice (headerBytes 49 3 48 [32, 32, 32, 32, 32, 45, 49]) 60 67 = [32, 32, 32, 32, 32, 45, 49] := by decide +kernel
    have e6 : atoi [45, 49] = some (-1) := by decide +kernel
    simp [e1, e2, e3, e4, e5, ht, e6]
  unfold LoadPlanetPath loadLines
  dsimp only
  rw [hs]
  simp [hp, Outcome.bind]

theorem section_head (lib : Lib F) {ic : UInt8} {ibody : ℕ} {bs : List (Block F)} {ls : List Line}
    (h : IsSection lib ic ibody bs ls) {tail : List Line} {l : Line} (hl : (ls ++ tail).head? = some l) :
    byteAt l 41 = ic ∨ (ls = [] ∧ tail.head? = some l) := by
  cases h with
  | nil => exact Or.inr ⟨rfl, by simpa using hl⟩
  | cons hh _ _ _ _ _ =>
    simp at hl
    subst hl
    exact Or.inl hh.2.1

/-- C55.  For every well formed file — the sections of longitude, latitude and radius, each made of blocks with a header and as many term lines
as it announces, at most one block per power, then the end of the file or a shorter line — the loader returns exactly the terms of the file, in
order, at the coordinate and power of their header. -/
theorem C55_loads_exactly (lib : Lib F) (ibody : ℕ) (hb : ibody < 8) {bl bb br : List (Block F)} {ll lb lr tail : List Line}
    (hl : IsSection lib 49 ibody bl ll) (hbb : IsSection lib 50 ibody bb lb) (hr : IsSection lib 51 ibody br lr)
    (nl : (bl.map Block.power).Nodup) (nb : (bb.map Block.power).Nodup) (nr : (br.map Block.power).Nodup)
    (ht : ∀ l, tail.head? = some l → l.length < 132)
    (hne : ll ++ (lb ++ (lr ++ tail)) ≠ []) (hnl : ∀ l ∈ ll ++ (lb ++ (lr ++ tail)), (10 : UInt8) ∉ l) :
    ∀ fuel, bl.length + bb.length + br.length < fuel →
    ∃ v : V87Planet F, LoadPlanetPath lib fuel ibody (some (joinLines (ll ++ (lb ++ (lr ++ tail))))) = .ok v ∧
      Holds v.l bl ∧ Holds v.b bb ∧ Holds v.r br := by
  intro fuel hf
  have p1 := parse_section lib 49 ibody hl [] (lb ++ (lr ++ tail)) (by
    intro l h
    rcases section_head lib hbb h with h1 | ⟨-, h⟩
    · right; rw [h1]; decide
    rcases section_head lib hr h with h1 | ⟨-, h⟩
    · right; rw [h1]; decide
    exact Or.inl (ht l h)) fuel (by omega) noTerms
  have p2 := parse_section lib 50 ibody hbb ll (lr ++ tail) (by
    intro l h
    rcases section_head lib hr h with h1 | ⟨-, h⟩
    · right; rw [h1]; decide
    exact Or.inl (ht l h)) fuel (by omega) noTerms
  have p3 := parse_section lib 51 ibody hr (ll ++ lb) tail (fun l h => Or.inl (ht l h)) fuel (by omega) noTerms
  refine ⟨⟨bl.foldl (fun c (b : Block F) => Function.update c b.power b.terms) noTerms, bb.foldl (fun c (b : Block F) => Function.update c b.power b.terms) noTerms,
    br.foldl (fun c (b : Block F) => Function.update c b.power b.terms) noTerms⟩, ?_, foldl_holds bl nl noTerms, foldl_holds bb nb noTerms,
    foldl_holds br nr noTerms⟩
  unfold LoadPlanetPath
  rw [if_neg (by omega)]
  dsimp only
  rw [splitLines_join hne hnl, Int.toNat_natCast, loadLines]
  simp only [List.nil_append, List.length_nil, Nat.zero_add] at p1
  rw [p1]
  simp only [Outcome.bind]
  rw [p2]
  dsimp only
  rw [List.append_assoc, List.length_append] at p3
  rw [p3]

/-- A library for the example: numbers are kept as their bytes. -/
def exampleLib : Lib Line := ⟨fun l => l.dropWhile (· = 32), some⟩

/-- A term line with digit d everywhere. -/
def exampleTerm (d : UInt8) : Line := List.replicate 131 d

/-- C55.  A concrete file meeting the hypotheses: one block with two terms of longitude at power 3 and one block of radius, final newline. -/
theorem C55_example : IsSection exampleLib 49 3 [⟨3, [⟨List.replicate 18 49, List.replicate 13 49, List.replicate 20 49⟩,
      ⟨List.replicate 18 50, List.replicate 13 50, List.replicate 20 50⟩]⟩]
      [headerBytes 49 3 51 [32, 32, 32, 32, 32, 32, 50], exampleTerm 49, exampleTerm 50] ∧
    IsSection exampleLib 51 3 [⟨0, [⟨List.replicate 18 51, List.replicate 13 51, List.replicate 20 51⟩]⟩]
      [headerBytes 51 3 48 [32, 32, 32, 32, 32, 32, 49], exampleTerm 51] ∧
    ∀ l ∈ [headerBytes 49 3 51 [32, 32, 32, 32, 32, 32, 50], exampleTerm 49, exampleTerm 50,
      headerBytes 51 3 48 [32, 32, 32, 32, 32, 32, 49], exampleTerm 51, []], (10 : UInt8) ∉ l := by
  have t : ∀ d : UInt8, d ≠ 32 → IsTerm exampleLib ⟨List.replicate 18 d, List.replicate 13 d, List.replicate 20 d⟩ (exampleTerm d) := by
    intro d hd
    refine ⟨by simp [exampleTerm], ?_, ?_, ?_⟩
    · simp [exampleTerm, exampleLib, slice, hd]
    · simp [exampleTerm, exampleLib, slice]
    · simp [exampleTerm, exampleLib, slice, hd]
  refine ⟨?_, ?_, ?_⟩
  · refine IsSection.cons (termLines := [exampleTerm 49, exampleTerm 50]) (rest := []) ?_ (by decide) (by decide) (by decide)
      (.cons (t 49 (by decide)) (.cons (t 50 (by decide)) .nil)) .nil
    exact ⟨by decide +kernel, by decide +kernel, by decide +kernel, by decide +kernel, by decide +kernel, by decide +kernel⟩
  · refine IsSection.cons (termLines := [exampleTerm 51]) (rest := []) ?_ (by decide) (by decide) (by decide)
      (.cons (t 51 (by decide)) .nil) .nil
    exact ⟨by decide +kernel, by decide +kernel, by decide +kernel, by decide +kernel, by decide +kernel, by decide +kernel⟩
  · decide +kernel

end Verif.Props
