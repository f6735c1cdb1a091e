import Verif.Model.Julian
import Verif.Spec.Calendar
import Verif.Lemmas.BaseInt
import Mathlib.Tactic.IntervalCases
import Mathlib.Tactic.NormNum

namespace Verif.Lemmas

open Verif.Go Verif.Model Verif.Model.Julian Verif.Spec

/-! ### closed forms of the specification -/

theorem yearStart_G (y : Int) :
    yearStart LeapG y = 365 * y + (y + 3) / 4 - (y + 99) / 100 + (y + 399) / 400 := by
  have step : ∀ z : Int, yearLen LeapG z =
      (365 * (z + 1) + (z + 1 + 3) / 4 - (z + 1 + 99) / 100 + (z + 1 + 399) / 400) -
      (365 * z + (z + 3) / 4 - (z + 99) / 100 + (z + 399) / 400) := by
    intro z; unfold yearLen; by_cases h : LeapG z <;> simp only [h, if_true, if_false] <;>
      unfold LeapG at h <;> omega
  have sum : ∀ (s : Int) (n : Nat), yearsLen LeapG s n =
      (365 * (s + n) + (s + n + 3) / 4 - (s + n + 99) / 100 + (s + n + 399) / 400) -
      (365 * s + (s + 3) / 4 - (s + 99) / 100 + (s + 399) / 400) := by
    intro s n
    induction n with
    | zero => simp [yearsLen]
    | succ n ih => rw [yearsLen, ih, step]; push_cast; rw [← Int.add_assoc s]; omega
  unfold yearStart
  split
  · rw [sum]; omega
  · rw [sum]; omega

theorem yearStart_J (y : Int) : yearStart LeapJ y = 365 * y + (y + 3) / 4 := by
  have step : ∀ z : Int, yearLen LeapJ z =
      (365 * (z + 1) + (z + 1 + 3) / 4) - (365 * z + (z + 3) / 4) := by
    intro z; unfold yearLen; by_cases h : LeapJ z <;> simp only [h, if_true, if_false] <;>
      unfold LeapJ at h <;> omega
  have sum : ∀ (s : Int) (n : Nat), yearsLen LeapJ s n =
      (365 * (s + n) + (s + n + 3) / 4) - (365 * s + (s + 3) / 4) := by
    intro s n
    induction n with
    | zero => simp [yearsLen]
    | succ n ih => rw [yearsLen, ih, step]; push_cast; rw [← Int.add_assoc s]; omega
  unfold yearStart
  split
  · rw [sum]; omega
  · rw [sum]; omega

/-- table of month starts -/
theorem monthsLen_eq (leap : Prop) [Decidable leap] (m : Int) (h1 : 1 ≤ m) (h2 : m ≤ 12) :
    monthsLen leap (m - 1).toNat =
      (if m = 1 then 0 else if m = 2 then 31 else (306 * (m + 1)) / 10 - 63 + (if leap then 1 else 0)) := by
  have : m = 1 ∨ m = 2 ∨ m = 3 ∨ m = 4 ∨ m = 5 ∨ m = 6 ∨ m = 7 ∨ m = 8 ∨ m = 9 ∨ m = 10 ∨ m = 11 ∨ m = 12 := by
    omega
  rcases this with rfl | rfl | rfl | rfl | rfl | rfl | rfl | rfl | rfl | rfl | rfl | rfl <;>
    by_cases h : leap <;> simp [monthsLen, monthLen, h]

/-- Integer day number used by the Gregorian conversion, `JD + 1/2` at the start of the day. -/
def gregN (y m d : Int) : Int :=
  let y' := (shiftYM y m).1
  let m' := (shiftYM y m).2
  (36525 * (y' + 4716)) / 100 + (306 * (m' + 1)) / 10 + (2 - y' / 100 + y' / 100 / 4) + d - 1524

def julN (y m d : Int) : Int :=
  let y' := (shiftYM y m).1
  let m' := (shiftYM y m).2
  (36525 * (y' + 4716)) / 100 + (306 * (m' + 1)) / 10 + d - 1524

theorem y36525 (y : Int) : (36525 * (y + 4716)) / 100 = 365 * y + y / 4 + 1722519 := by omega

theorem gregN_dayCount (y m d : Int) (h1 : 1 ≤ m) (h2 : m ≤ 12) :
    gregN y m d = dayCount LeapG y m d + 1721060 := by
  unfold gregN dayCount
  rw [yearStart_G, monthsLen_eq _ m h1 h2]
  have e1 : (y + 3) / 4 = (y - 1) / 4 + 1 := by omega
  have e2 : (y + 99) / 100 = (y - 1) / 100 + 1 := by omega
  have e3 : (y + 399) / 400 = (y - 1) / 400 + 1 := by omega
  have e4 : ∀ z : Int, z / 100 / 4 = z / 400 := by intro z; omega
  unfold shiftYM
  by_cases ha : m = 1
  · subst ha; simp [y36525]; omega
  by_cases hb : m = 2
  · subst hb; simp [y36525]; omega
  · simp only [ha, hb, or_self, if_false, y36525, e4, e1, e2, e3]
    by_cases hl : LeapG y
    · simp only [hl, if_true]
      unfold LeapG at hl
      have f1 : y / 4 = (y - 1) / 4 + 1 := by omega
      have f2 : y / 400 - y / 100 = (y - 1) / 400 - (y - 1) / 100 := by omega
      omega
    · simp only [hl, if_false]
      unfold LeapG at hl
      have f2 : y / 400 = (y - 1) / 400 := by omega
      have f1 : y / 4 - y / 100 = (y - 1) / 4 - (y - 1) / 100 := by omega
      omega

theorem julN_dayCount (y m d : Int) (h1 : 1 ≤ m) (h2 : m ≤ 12) :
    julN y m d = dayCount LeapJ y m d + 1721058 := by
  unfold julN dayCount
  rw [yearStart_J, monthsLen_eq _ m h1 h2]
  unfold shiftYM
  by_cases ha : m = 1
  · subst ha; simp [y36525]; omega
  by_cases hb : m = 2
  · subst hb; simp [y36525]; omega
  · simp only [ha, hb, or_self, if_false, y36525]
    by_cases hl : LeapJ y
    · simp only [hl, if_true]; unfold LeapJ at hl; omega
    · simp only [hl, if_false]; unfold LeapJ at hl; omega

theorem CalendarGregorianToJD_eq (y m : Int) (d : ℝ) :
    CalendarGregorianToJD y m d = ((gregN y m 0 : Int) : ℝ) + d - 0.5 := by
  unfold CalendarGregorianToJD gregN
  simp only [floorDiv_pos _ 100 (by norm_num), floorDiv_pos _ 4 (by norm_num),
    floorDiv_pos _ 10 (by norm_num)]
  push_cast
  ring

theorem CalendarJulianToJD_eq (y m : Int) (d : ℝ) :
    CalendarJulianToJD y m d = ((julN y m 0 : Int) : ℝ) + d - 0.5 := by
  unfold CalendarJulianToJD julN
  simp only [floorDiv_pos _ 100 (by norm_num), floorDiv_pos _ 10 (by norm_num)]
  push_cast
  ring

theorem gregN_add (y m d : Int) : gregN y m d = gregN y m 0 + d := by
  unfold gregN; simp only; ring

theorem julN_add (y m d : Int) : julN y m d = julN y m 0 + d := by
  unfold julN; simp only; ring

/-! ### inversion -/

theorem c36525 (c : Int) : 36525 * c / 100 = 365 * c + c / 4 := by omega

/-- `fromA` undoes the (shifted) Julian day number. -/
theorem fromA_core (y m d : Int) (hm1 : 3 ≤ m) (hm2 : m ≤ 14) (hd1 : 1 ≤ d)
    (hd2 : d ≤ 31) (hd3 : (m = 4 ∨ m = 6 ∨ m = 9 ∨ m = 11) → d ≤ 30)
    (hd4 : m = 14 → d ≤ 29) (hd5 : m = 14 → ¬ 4 ∣ y + 1 → d ≤ 28) :
    fromA ((36525 * (y + 4716)) / 100 + (306 * (m + 1)) / 10 + d - 1524) =
      (if m > 12 then y + 1 else y, if m > 12 then m - 12 else m, d) := by
  unfold fromA
  simp only [floorDiv_pos _ 100 (by norm_num), floorDiv_pos _ 36525 (by norm_num),
    floorDiv_pos _ 306001 (by norm_num), floorDiv_pos _ 10000 (by norm_num), y36525]
  have hc : ((365 * y + y / 4 + 1722519 + 306 * (m + 1) / 10 + d - 1524 + 1524) * 100 - 12210) / 36525
      = y + 4716 := by
    have : m = 3 ∨ m = 4 ∨ m = 5 ∨ m = 6 ∨ m = 7 ∨ m = 8 ∨ m = 9 ∨ m = 10 ∨ m = 11 ∨ m = 12 ∨ m = 13 ∨ m = 14 := by
      omega
    rcases this with rfl | rfl | rfl | rfl | rfl | rfl | rfl | rfl | rfl | rfl | rfl | rfl <;>
      norm_num at * <;> omega
  rw [hc, y36525]
  have he : (365 * y + y / 4 + 1722519 + 306 * (m + 1) / 10 + d - 1524 + 1524 -
      (365 * y + y / 4 + 1722519)) = 306 * (m + 1) / 10 + d := by ring
  rw [he]
  interval_cases m <;> norm_num at * <;> refine ⟨?_, ?_, ?_⟩ <;> omega

theorem fromA_julN (y m d : Int) (hv : ValidDate LeapJ y m d) :
    fromA (julN y m d) = (y, m, d) := by
  obtain ⟨h1, h2, h3, h4⟩ := hv
  unfold julN shiftYM
  by_cases hl : LeapJ y <;> simp only [monthLen, hl, if_true, if_false] at h4 <;> unfold LeapJ at hl <;>
  by_cases hm : m = 1 ∨ m = 2
  · simp only [hm, if_true]
    rw [fromA_core (y - 1) (m + 12) d (by omega) (by omega) h3 (by split_ifs at h4 <;> omega)
      (by omega) (by intro h; simp [show m = 2 by omega] at h4; omega) (by omega)]
    have : m + 12 > 12 := by omega
    simp [this]
  · simp only [hm, if_false]
    rw [fromA_core y m d (by omega) (by omega) h3 (by split_ifs at h4 <;> omega)
      (by split_ifs at h4 <;> omega) (by omega) (by omega)]
    have : ¬ m > 12 := by omega
    simp [this]
  · simp only [hm, if_true]
    rw [fromA_core (y - 1) (m + 12) d (by omega) (by omega) h3 (by split_ifs at h4 <;> omega)
      (by omega) (by intro h; simp [show m = 2 by omega] at h4; omega)
      (by intro h _; simp [show m = 2 by omega] at h4; omega)]
    have : m + 12 > 12 := by omega
    simp [this]
  · simp only [hm, if_false]
    rw [fromA_core y m d (by omega) (by omega) h3 (by split_ifs at h4 <;> omega)
      (by split_ifs at h4 <;> omega) (by omega) (by omega)]
    have : ¬ m > 12 := by omega
    simp [this]

/-- The Gregorian correction recovers the Julian style day number. -/
theorem gregA_core (y m d : Int) (hm1 : 3 ≤ m) (hm2 : m ≤ 14) (hd1 : 1 ≤ d)
    (hd2 : d ≤ 31) (hd4 : m = 14 → d ≤ 29)
    (hd5 : m = 14 → ¬ ((4 ∣ y + 1 ∧ ¬ 100 ∣ y + 1) ∨ 400 ∣ y + 1) → d ≤ 28) :
    gregA ((36525 * (y + 4716)) / 100 + (306 * (m + 1)) / 10 + (2 - y / 100 + y / 100 / 4) + d - 1524)
      = (36525 * (y + 4716)) / 100 + (306 * (m + 1)) / 10 + d - 1524 := by
  unfold gregA
  simp only [floorDiv_pos _ 3652425 (by norm_num), floorDiv_pos _ 4 (by norm_num), y36525]
  obtain ⟨B, s, r, hs0, hs3, hr0, hr99, rfl⟩ : ∃ B s r : Int, 0 ≤ s ∧ s ≤ 3 ∧ 0 ≤ r ∧ r ≤ 99 ∧
      y = 400 * B + 100 * s + r :=
    ⟨y / 400, y % 400 / 100, y % 100, by omega, by omega, by omega, by omega, by omega⟩
  have hA : (400 * B + 100 * s + r) / 100 = 4 * B + s := by omega
  have h4 : (4 * B + s) / 4 = B := by omega
  have hq : (400 * B + 100 * s + r) / 4 = 100 * B + 25 * s + r / 4 := by omega
  rw [hA, h4, hq]
  have hα : ((365 * (400 * B + 100 * s + r) + (100 * B + 25 * s + r / 4) + 1722519 + 306 * (m + 1) / 10 +
      (2 - (4 * B + s) + B) + d - 1524) * 100 - 186721625) / 3652425 = 4 * B + s - 4 := by
    have : m = 3 ∨ m = 4 ∨ m = 5 ∨ m = 6 ∨ m = 7 ∨ m = 8 ∨ m = 9 ∨ m = 10 ∨ m = 11 ∨ m = 12 ∨ m = 13 ∨ m = 14 := by
      omega
    have hlast : m = 14 → r ≤ 98 ∨ d ≤ 28 ∨ s = 3 := by
      intro h
      by_cases h98 : r ≤ 98
      · exact Or.inl h98
      · by_cases h3 : s = 3
        · exact Or.inr (Or.inr h3)
        · refine Or.inr (Or.inl (hd5 h ?_))
          have : r = 99 := by omega
          subst this
          rintro (⟨_, h100⟩ | h400) <;> omega
    clear hd5 hA h4 hq
    rcases this with rfl | rfl | rfl | rfl | rfl | rfl | rfl | rfl | rfl | rfl | rfl | rfl <;>
      norm_num at * <;> omega
  rw [hα]
  have h5 : (4 * B + s - 4) / 4 = B - 1 := by omega
  rw [h5]; ring

theorem fromA_gregN (y m d : Int) (hv : ValidDate LeapG y m d) :
    fromA (gregA (gregN y m d)) = (y, m, d) := by
  obtain ⟨h1, h2, h3, h4⟩ := hv
  unfold gregN shiftYM
  by_cases hl : LeapG y <;> simp only [monthLen, hl, if_true, if_false] at h4 <;> unfold LeapG at hl <;>
  by_cases hm : m = 1 ∨ m = 2
  · simp only [hm, if_true]
    rw [gregA_core (y - 1) (m + 12) d (by omega) (by omega) h3 (by split_ifs at h4 <;> omega)
      (by intro h; simp [show m = 2 by omega] at h4; omega)
      (by intro h hh; exact absurd (by simpa using hl) hh)]
    rw [fromA_core (y - 1) (m + 12) d (by omega) (by omega) h3 (by split_ifs at h4 <;> omega)
      (by omega) (by intro h; simp [show m = 2 by omega] at h4; omega) (by omega)]
    have : m + 12 > 12 := by omega
    simp [this]
  · simp only [hm, if_false]
    rw [gregA_core y m d (by omega) (by omega) h3 (by split_ifs at h4 <;> omega) (by omega) (by omega)]
    rw [fromA_core y m d (by omega) (by omega) h3 (by split_ifs at h4 <;> omega)
      (by split_ifs at h4 <;> omega) (by omega) (by omega)]
    have : ¬ m > 12 := by omega
    simp [this]
  · simp only [hm, if_true]
    rw [gregA_core (y - 1) (m + 12) d (by omega) (by omega) h3 (by split_ifs at h4 <;> omega)
      (by intro h; simp [show m = 2 by omega] at h4; omega)
      (by intro h _; simp [show m = 2 by omega] at h4; omega)]
    rw [fromA_core (y - 1) (m + 12) d (by omega) (by omega) h3 (by split_ifs at h4 <;> omega)
      (by omega) (by intro h; simp [show m = 2 by omega] at h4; omega)
      (by intro h _; simp [show m = 2 by omega] at h4; omega)]
    have : m + 12 > 12 := by omega
    simp [this]
  · simp only [hm, if_false]
    rw [gregA_core y m d (by omega) (by omega) h3 (by split_ifs at h4 <;> omega) (by omega) (by omega)]
    rw [fromA_core y m d (by omega) (by omega) h3 (by split_ifs at h4 <;> omega)
      (by split_ifs at h4 <;> omega) (by omega) (by omega)]
    have : ¬ m > 12 := by omega
    simp [this]

end Verif.Lemmas
