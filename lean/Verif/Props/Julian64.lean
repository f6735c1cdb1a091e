import Verif.Model.Julian64
import Verif.Props.Julian
import Verif.Props.JulianTime
/-
C166: the calendar functions in float64.
-/
namespace Verif.Props

open Verif.Go Verif.Go.F64 Verif.Model Verif.Model.Julian Verif.Model.JulianTime Verif.Spec Verif.Lemmas

/-- A float64 below 2²² plus or minus a multiple of 1/2 that does not increase its size is a float64. -/
theorem rep_add_half {a : ℝ} (ha : Rep a) (h22 : |a| ≤ 2 ^ 22) (n : ℤ) (h : |a + n * 2 ^ (-1 : ℤ)| ≤ |a|) : Rep (a + n * 2 ^ (-1 : ℤ)) := by
  obtain ⟨m, k, e, hm, hk⟩ := ha
  have hp := two_zpow_pos k
  by_cases hk1 : k ≤ -1
  · have hn : (((-1 - k).toNat : ℕ) : ℤ) = -1 - k := Int.toNat_of_nonneg (by omega)
    refine rep_of (k := k) (m + n * 2 ^ (-1 - k).toNat) hk ?_ ?_
    · push_cast
      rw [add_mul, ← e, mul_assoc, ← zpow_natCast (2 : ℝ), hn, ← zpow_add₀ (by norm_num)]
      congr 3; ring
    · refine h.trans ?_
      rw [e, abs_mul, abs_of_pos hp, zpow_add₀ (by norm_num)]
      refine mul_le_mul_of_nonneg_right ?_ hp.le
      have : ((|m| : ℤ) : ℝ) ≤ ((2 ^ 53 : ℤ) : ℝ) := Int.cast_le.mpr hm
      push_cast at this
      norm_num at this ⊢
      exact this
  · have hn : (((k + 1).toNat : ℕ) : ℤ) = k + 1 := Int.toNat_of_nonneg (by omega)
    refine rep_of (k := -1) (m * 2 ^ (k + 1).toNat + n) (by norm_num) ?_ ?_
    · push_cast
      rw [add_mul, mul_assoc, ← zpow_natCast (2 : ℝ), hn, ← zpow_add₀ (by norm_num), e]
      congr 3; ring
    · refine h.trans (h22.trans ?_)
      norm_num

/-- The integer in the conversion from the Gregorian calendar. -/
theorem gregJD64 (y m : ℤ) (d : ℝ) (hy : -4700 ≤ y) (hy' : y ≤ 6700) (hm : 1 ≤ m) (hm' : m ≤ 12) (h0 : 0 ≤ d) (h1 : d ≤ 32) :
    Julian64.CalendarGregorianToJD y m d = fl ((gregN y m 0 + 1524 : ℤ) + d) - 1524.5 ∧ 4000 ≤ gregN y m 0 ∧ gregN y m 0 ≤ 4170000 := by
  have hr : 4000 ≤ gregN y m 0 ∧ gregN y m 0 ≤ 4170000 := by
    unfold gregN shiftYM
    split_ifs <;> simp only <;> constructor <;> omega
  refine ⟨?_, hr⟩
  have hN : ((gregN y m 0 + 1524 : ℤ) : ℝ) ≤ 4171524 := by exact_mod_cast (by omega : gregN y m 0 + 1524 ≤ 4171524)
  have hN' : (5524 : ℝ) ≤ ((gregN y m 0 + 1524 : ℤ) : ℝ) := by exact_mod_cast (by omega : 5524 ≤ gregN y m 0 + 1524)
  have hs : ∀ n : ℤ, |n| ≤ 10000000 → fl (n : ℝ) = n := fun n hn => fl_rep (rep_int (hn.trans (by norm_num)))
  have e : Julian64.CalendarGregorianToJD y m d = fl (fl ((gregN y m 0 + 1524 : ℤ) + d) - 1524.5) := by
    unfold Julian64.CalendarGregorianToJD
    simp only [floorDiv_pos _ 100 (by norm_num), floorDiv_pos _ 4 (by norm_num), floorDiv_pos _ 10 (by norm_num)]
    have e1 : (36525 * ((shiftYM y m).1 + 4716) / 100 : ℤ) + (306 * ((shiftYM y m).2 + 1) / 10 + (2 - (shiftYM y m).1 / 100 + (shiftYM y m).1 / 100 / 4)) =
        gregN y m 0 + 1524 := by
      unfold gregN
      simp only
      ring
    rw [hs _, hs _, ← Int.cast_add, e1, hs _]
    · rw [abs_le]; omega
    · rw [abs_le]; unfold shiftYM; split_ifs <;> simp only <;> omega
    · rw [abs_le]; unfold shiftYM; split_ifs <;> simp only <;> omega
  rw [e]
  have h6 : (5524 : ℝ) ≤ fl ((gregN y m 0 + 1524 : ℤ) + d) := by
    have := le_fl (rep_int (n := 5524) (by norm_num)) (x := ((gregN y m 0 + 1524 : ℤ) : ℝ) + d) (by push_cast at *; linarith)
    push_cast at this ⊢
    exact this
  have h7 : fl ((gregN y m 0 + 1524 : ℤ) + d) ≤ 4171556 := by
    have := fl_le (rep_int (n := 4171556) (by norm_num)) (x := ((gregN y m 0 + 1524 : ℤ) : ℝ) + d) (by push_cast at *; linarith)
    push_cast at this ⊢
    exact this
  have hR := rep_fl ((gregN y m 0 + 1524 : ℤ) + d)
  generalize fl ((gregN y m 0 + 1524 : ℤ) + d) = a at *
  have := rep_add_half hR (by rw [abs_of_nonneg (by linarith)]; norm_num; linarith) (-3049)
    (by rw [abs_of_nonneg, abs_of_nonneg] <;> push_cast <;> norm_num <;> linarith)
  have e2 : a + ((-3049 : ℤ) : ℝ) * 2 ^ (-1 : ℤ) = a - 1524.5 := by push_cast; norm_num; ring
  rw [e2] at this
  exact fl_rep this

/-- The same for the Julian calendar. -/
theorem julJD64 (y m : ℤ) (d : ℝ) (hy : -4700 ≤ y) (hy' : y ≤ 6700) (hm : 1 ≤ m) (hm' : m ≤ 12) (h0 : 0 ≤ d) (h1 : d ≤ 32) :
    Julian64.CalendarJulianToJD y m d = fl ((julN y m 0 + 1524 : ℤ) + d) - 1524.5 ∧ 4000 ≤ julN y m 0 ∧ julN y m 0 ≤ 4170000 := by
  have hr : 4000 ≤ julN y m 0 ∧ julN y m 0 ≤ 4170000 := by
    unfold julN shiftYM
    split_ifs <;> simp only <;> constructor <;> omega
  refine ⟨?_, hr⟩
  have hN : ((julN y m 0 + 1524 : ℤ) : ℝ) ≤ 4171524 := by exact_mod_cast (by omega : julN y m 0 + 1524 ≤ 4171524)
  have hN' : (5524 : ℝ) ≤ ((julN y m 0 + 1524 : ℤ) : ℝ) := by exact_mod_cast (by omega : 5524 ≤ julN y m 0 + 1524)
  have hs : ∀ n : ℤ, |n| ≤ 10000000 → fl (n : ℝ) = n := fun n hn => fl_rep (rep_int (hn.trans (by norm_num)))
  have e : Julian64.CalendarJulianToJD y m d = fl (fl ((julN y m 0 + 1524 : ℤ) + d) - 1524.5) := by
    unfold Julian64.CalendarJulianToJD
    simp only [floorDiv_pos _ 100 (by norm_num), floorDiv_pos _ 10 (by norm_num)]
    have e1 : (36525 * ((shiftYM y m).1 + 4716) / 100 : ℤ) + 306 * ((shiftYM y m).2 + 1) / 10 = julN y m 0 + 1524 := by
      unfold julN
      simp only
      ring
    rw [hs _, hs _, ← Int.cast_add, e1, hs _]
    · rw [abs_le]; omega
    · rw [abs_le]; unfold shiftYM; split_ifs <;> simp only <;> omega
    · rw [abs_le]; unfold shiftYM; split_ifs <;> simp only <;> omega
  rw [e]
  have h6 : (5524 : ℝ) ≤ fl ((julN y m 0 + 1524 : ℤ) + d) := by
    have := le_fl (rep_int (n := 5524) (by norm_num)) (x := ((julN y m 0 + 1524 : ℤ) : ℝ) + d) (by push_cast at *; linarith)
    push_cast at this ⊢
    exact this
  have h7 : fl ((julN y m 0 + 1524 : ℤ) + d) ≤ 4171556 := by
    have := fl_le (rep_int (n := 4171556) (by norm_num)) (x := ((julN y m 0 + 1524 : ℤ) : ℝ) + d) (by push_cast at *; linarith)
    push_cast at this ⊢
    exact this
  have hR := rep_fl ((julN y m 0 + 1524 : ℤ) + d)
  generalize fl ((julN y m 0 + 1524 : ℤ) + d) = a at *
  have := rep_add_half hR (by rw [abs_of_nonneg (by linarith)]; norm_num; linarith) (-3049)
    (by rw [abs_of_nonneg, abs_of_nonneg] <;> push_cast <;> norm_num <;> linarith)
  have e2 : a + ((-3049 : ℤ) : ℝ) * 2 ^ (-1 : ℤ) = a - 1524.5 := by push_cast; norm_num; ring
  rw [e2] at this
  exact fl_rep this

/-- **C166.**  The Julian day of a date of the Julian calendar. -/
theorem C166_julian (y m : ℤ) (d : ℝ) (hy : -4700 ≤ y) (hy' : y ≤ 6700) (hm : 1 ≤ m) (hm' : m ≤ 12) (h0 : 0 ≤ d) (h1 : d ≤ 32) :
    |Julian64.CalendarJulianToJD y m d - CalendarJulianToJD y m d| ≤ 2 ^ (-32 : ℤ) ∧
    ((∃ n : ℤ, d = n * 2 ^ (-31 : ℤ)) → Julian64.CalendarJulianToJD y m d = CalendarJulianToJD y m d) := by
  obtain ⟨e, g1, g2⟩ := julJD64 y m d hy hy' hm hm' h0 h1
  rw [e, CalendarJulianToJD_eq]
  have g1' : (4000 : ℝ) ≤ (julN y m 0 : ℝ) := by exact_mod_cast g1
  have g2' : (julN y m 0 : ℝ) ≤ 4170000 := by exact_mod_cast g2
  constructor
  · have := fl_near_lt (x := (julN y m 0 + 1524 : ℤ) + d) (n := 22) (by
      push_cast; rw [abs_of_nonneg (by linarith)]; norm_num; linarith) (by norm_num)
    rw [show (22 : ℤ) - 54 = -32 by norm_num] at this
    refine le_trans (le_of_eq ?_) this
    congr 1
    push_cast; ring
  · rintro ⟨n, hn⟩
    rw [fl_rep (rep_of (k := -31) ((julN y m 0 + 1524) * 2 ^ 31 + n) (by norm_num) (by rw [hn]; push_cast; ring) (by
      push_cast; rw [abs_of_nonneg (by linarith)]; norm_num; linarith))]
    push_cast; ring

/-- **C166.**  The Julian day of a Gregorian date has one rounding error, at most 2⁻³² day, 20 microseconds; and none if the day is a multiple of 2⁻³¹. -/
theorem C166_gregorian (y m : ℤ) (d : ℝ) (hy : -4700 ≤ y) (hy' : y ≤ 6700) (hm : 1 ≤ m) (hm' : m ≤ 12) (h0 : 0 ≤ d) (h1 : d ≤ 32) :
    |Julian64.CalendarGregorianToJD y m d - CalendarGregorianToJD y m d| ≤ 2 ^ (-32 : ℤ) ∧
    ((∃ n : ℤ, d = n * 2 ^ (-31 : ℤ)) → Julian64.CalendarGregorianToJD y m d = CalendarGregorianToJD y m d) := by
  obtain ⟨e, g1, g2⟩ := gregJD64 y m d hy hy' hm hm' h0 h1
  rw [e, CalendarGregorianToJD_eq]
  have g1' : (4000 : ℝ) ≤ (gregN y m 0 : ℝ) := by exact_mod_cast g1
  have g2' : (gregN y m 0 : ℝ) ≤ 4170000 := by exact_mod_cast g2
  constructor
  · have := fl_near_lt (x := (gregN y m 0 + 1524 : ℤ) + d) (n := 22) (by
      push_cast; rw [abs_of_nonneg (by linarith)]; norm_num; linarith) (by norm_num)
    rw [show (22 : ℤ) - 54 = -32 by norm_num] at this
    refine le_trans (le_of_eq ?_) this
    congr 1
    push_cast; ring
  · rintro ⟨n, hn⟩
    rw [fl_rep (rep_of (k := -31) ((gregN y m 0 + 1524) * 2 ^ 31 + n) (by norm_num) (by rw [hn]; push_cast; ring) (by
      push_cast; rw [abs_of_nonneg (by linarith)]; norm_num; linarith))]
    push_cast; ring

theorem fromA_day (a : ℤ) : 0 ≤ (fromA a).2.2 ∧ (fromA a).2.2 ≤ 31 := by
  unfold fromA
  simp only [floorDiv_pos _ 100 (by norm_num), floorDiv_pos _ 36525 (by norm_num), floorDiv_pos _ 306001 (by norm_num), floorDiv_pos _ 10000 (by norm_num)]
  generalize a + 1524 - 36525 * ((((a + 1524) * 100 - 12210)) / 36525) / 100 = x
  omega

/-- A day of the month and the fraction of a float64 above 32 are added without error. -/
theorem day_exact {s : ℝ} (hs : Rep s) (h : 32 ≤ s) (n : ℤ) (h0 : 0 ≤ n) (h1 : n ≤ 31) : fl (fl n + (s - ⌊s⌋)) = n + (s - ⌊s⌋) := by
  have hn : fl (n : ℝ) = n := fl_rep (rep_int (by rw [abs_of_nonneg h0]; exact h1.trans (by norm_num)))
  rw [hn]
  apply fl_rep
  obtain ⟨m, k, e, hm, hk⟩ := hs
  have f0 : 0 ≤ s - ⌊s⌋ := sub_nonneg.mpr (Int.floor_le s)
  have f1 : s - ⌊s⌋ < 1 := by have := Int.lt_floor_add_one s; linarith
  have n0 : (0 : ℝ) ≤ n := by exact_mod_cast h0
  have n1 : (n : ℝ) ≤ 31 := by exact_mod_cast h1
  by_cases hk0 : 0 ≤ k
  · have : s = ((m * 2 ^ k.toNat : ℤ) : ℝ) := by
      rw [e]; push_cast; rw [← zpow_natCast (2 : ℝ), Int.toNat_of_nonneg hk0]
    rw [this, Int.floor_intCast, sub_self, add_zero]
    exact rep_int (by rw [abs_of_nonneg h0]; exact h1.trans (by norm_num))
  · push Not at hk0
    have hz : (((-k).toNat : ℕ) : ℤ) = -k := Int.toNat_of_nonneg (by omega)
    have hp := two_zpow_pos k
    refine rep_of (k := k) (m + (n - ⌊s⌋) * 2 ^ (-k).toNat) hk ?_ ?_
    · push_cast
      rw [add_mul, ← e, mul_assoc, ← zpow_natCast (2 : ℝ), hz, ← zpow_add₀ (by norm_num), neg_add_cancel, zpow_zero]
      ring
    · have hb : s ≤ 2 ^ (53 + k) := by
        rw [e, zpow_add₀ (by norm_num)]
        refine mul_le_mul_of_nonneg_right ?_ hp.le
        have : ((|m| : ℤ) : ℝ) ≤ ((2 ^ 53 : ℤ) : ℝ) := Int.cast_le.mpr hm
        push_cast at this
        have h3 := le_abs_self (m : ℝ)
        norm_num at this ⊢
        linarith
      rw [abs_of_nonneg (by linarith)]
      linarith

/-- The conversions to the calendar round only the sum of the Julian day and one half. -/
theorem cal64 (jd : ℝ) (h : 32 ≤ fl (jd + 0.5)) :
    Julian64.JDToCalendar jd = JDToCalendar (fl (jd + 0.5) - 0.5) ∧
    Julian64.jdToCalendarGregorian jd = jdToCalendarGregorian (fl (jd + 0.5) - 0.5) := by
  have hR := rep_fl (jd + 0.5)
  unfold Julian64.JDToCalendar JDToCalendar Julian64.jdToCalendarGregorian jdToCalendarGregorian
  rw [sub_add_cancel]
  generalize fl (jd + 0.5) = s at *
  rw [modf_nonneg (by linarith : (0 : ℝ) ≤ s)]
  constructor
  · obtain ⟨h1, h2⟩ := fromA_day (if ⌊s⌋ ≥ 2299151 then gregA ⌊s⌋ else ⌊s⌋)
    simp only
    rw [day_exact hR h _ h1 h2]
  · obtain ⟨h1, h2⟩ := fromA_day (gregA ⌊s⌋)
    simp only
    rw [day_exact hR h _ h1 h2]

/-- **C166.**  The calendar date of a Julian day is that of an instant at most 2⁻³² day away, and of the Julian day itself if it is a multiple of
2⁻³¹. -/
theorem C166_toCalendar (jd : ℝ) (h0 : 32 ≤ jd) (h1 : jd ≤ 4190000) :
    ∃ s, |s - jd| ≤ 2 ^ (-32 : ℤ) ∧ ((∃ n : ℤ, jd = n * 2 ^ (-31 : ℤ)) → s = jd) ∧
      Julian64.JDToCalendar jd = JDToCalendar s ∧ Julian64.jdToCalendarGregorian jd = jdToCalendarGregorian s := by
  have h2 : 32 ≤ fl (jd + 0.5) := by
    have := le_fl (rep_int (n := 32) (by norm_num)) (x := jd + 0.5) (by push_cast; linarith)
    push_cast at this ⊢
    exact this
  refine ⟨fl (jd + 0.5) - 0.5, ?_, ?_, cal64 jd h2⟩
  · have := fl_near_lt (x := jd + 0.5) (n := 22) (by rw [abs_of_nonneg (by linarith)]; norm_num; linarith) (by norm_num)
    rw [show (22 : ℤ) - 54 = -32 by norm_num] at this
    refine le_trans (le_of_eq ?_) this
    congr 1; ring
  · rintro ⟨n, hn⟩
    rw [fl_rep (rep_of (k := -31) (n + 2 ^ 30) (by norm_num) (by rw [hn]; push_cast; norm_num; ring) (by
      rw [abs_of_nonneg (by linarith)]; norm_num; linarith))]
    ring

/-- A Julian day computed from the calendar is converted back without further rounding. -/
theorem greg_half (y m : ℤ) (d : ℝ) (hy : -4700 ≤ y) (hy' : y ≤ 6700) (hm : 1 ≤ m) (hm' : m ≤ 12) (h0 : 0 ≤ d) (h1 : d ≤ 32) :
    let jd := Julian64.CalendarGregorianToJD y m d
    32 ≤ jd ∧ fl (jd + 0.5) = jd + 0.5 := by
  obtain ⟨e, g1, g2⟩ := gregJD64 y m d hy hy' hm hm' h0 h1
  have g1' : (4000 : ℝ) ≤ (gregN y m 0 : ℝ) := by exact_mod_cast g1
  have g2' : (gregN y m 0 : ℝ) ≤ 4170000 := by exact_mod_cast g2
  intro jd
  have ej : jd = fl ((gregN y m 0 + 1524 : ℤ) + d) - 1524.5 := e
  have h6 : (5524 : ℝ) ≤ fl ((gregN y m 0 + 1524 : ℤ) + d) := by
    have := le_fl (rep_int (n := 5524) (by norm_num)) (x := ((gregN y m 0 + 1524 : ℤ) : ℝ) + d) (by push_cast; linarith)
    push_cast at this ⊢
    exact this
  have h7 : fl ((gregN y m 0 + 1524 : ℤ) + d) ≤ 4171556 := by
    have := fl_le (rep_int (n := 4171556) (by norm_num)) (x := ((gregN y m 0 + 1524 : ℤ) : ℝ) + d) (by push_cast; linarith)
    push_cast at this ⊢
    exact this
  have hR := rep_fl ((gregN y m 0 + 1524 : ℤ) + d)
  rw [ej]
  generalize fl ((gregN y m 0 + 1524 : ℤ) + d) = a at *
  refine ⟨by linarith, ?_⟩
  have := rep_add_half hR (by rw [abs_of_nonneg (by linarith)]; norm_num; linarith) (-3048)
    (by rw [abs_of_nonneg, abs_of_nonneg] <;> push_cast <;> norm_num <;> linarith)
  have e2 : a + ((-3048 : ℤ) : ℝ) * 2 ^ (-1 : ℤ) = a - 1524.5 + 0.5 := by push_cast; norm_num; ring
  rw [e2] at this
  exact fl_rep this

theorem reform_jd (y m : Int) (d : ℝ) (hv : ValidInstant LeapG y m d) (hr : FromReform y m d) : 2299160.5 ≤ CalendarGregorianToJD y m d := by
  obtain ⟨h1, h2, h3, -⟩ := hv
  rw [CalendarGregorianToJD_eq]
  have h := gregN_dayCount y m 1 h1 h2
  rw [gregN_add, dayCount, yearStart_G, monthsLen_eq _ m h1 h2] at h
  rcases hr with hy | ⟨rfl, hm | ⟨rfl, hd⟩⟩
  · have : (2299238 : Int) - 1 ≤ gregN y m 0 := by
      by_cases hl : LeapG y <;> simp only [hl, if_true, if_false] at h <;> split_ifs at h <;> omega
    have : ((2299238 : Int) : ℝ) - 1 ≤ ((gregN y m 0 : Int) : ℝ) := by exact_mod_cast this
    push_cast at this; linarith
  · have : (2299178 : Int) - 1 ≤ gregN 1582 m 0 := by
      have hl : ¬ LeapG 1582 := by decide
      simp only [hl, if_false] at h; split_ifs at h <;> omega
    have : ((2299178 : Int) : ℝ) - 1 ≤ ((gregN 1582 m 0 : Int) : ℝ) := by exact_mod_cast this
    push_cast at this; linarith
  · have : gregN 1582 10 0 = 2299146 := by decide
    rw [this]; push_cast; linarith

/-- **C166.**  A Gregorian date carried to the Julian day and back is a valid date at most 2⁻³² day, 20 microseconds, from the first; it is the same date
if the day is a multiple of 2⁻³¹. -/
theorem C166_roundtrip (y m : ℤ) (d : ℝ) (hv : ValidInstant LeapG y m d) (hr : FromReform y m d) (hy' : y ≤ 6700) :
    ∃ y' m' d', Julian64.JDToCalendar (Julian64.CalendarGregorianToJD y m d) = (y', m', d') ∧ ValidInstant LeapG y' m' d' ∧
      |CalendarGregorianToJD y' m' d' - CalendarGregorianToJD y m d| ≤ 2 ^ (-32 : ℤ) ∧
      ((∃ n : ℤ, d = n * 2 ^ (-31 : ℤ)) → y' = y ∧ m' = m ∧ d' = d) := by
  have hy : -4700 ≤ y := by
    rcases hr with h | ⟨h, -⟩ <;> omega
  have hv0 := hv
  obtain ⟨m1, m2, d1, d2⟩ := hv
  have h32 : d ≤ 32 := by
    have : monthLen (LeapG y) m ≤ 31 := by unfold monthLen; split_ifs <;> norm_num
    have : (monthLen (LeapG y) m : ℝ) ≤ 31 := by exact_mod_cast this
    linarith
  obtain ⟨k1, k2⟩ := C166_gregorian y m d hy hy' m1 m2 (by linarith) h32
  obtain ⟨q1, q2⟩ := greg_half y m d hy hy' m1 m2 (by linarith) h32
  have hc := (cal64 (Julian64.CalendarGregorianToJD y m d) (by rw [q2]; linarith)).1
  rw [q2, add_sub_cancel_right] at hc
  have hge : 2299160.5 ≤ Julian64.CalendarGregorianToJD y m d := by
    have hx : 2299160.5 ≤ CalendarGregorianToJD y m d := reform_jd y m d hv0 hr
    obtain ⟨e, -, -⟩ := gregJD64 y m d hy hy' m1 m2 (by linarith) h32
    rw [CalendarGregorianToJD_eq] at hx
    have := le_fl (rep_int (n := 2300685) (by norm_num)) (x := ((gregN y m 0 + 1524 : ℤ) : ℝ) + d) (by push_cast; linarith)
    rw [e]
    push_cast at this ⊢
    linarith
  obtain ⟨y', m', d', e1, e2, e3⟩ := C04_jd_date_jd _ hge
  refine ⟨y', m', d', hc.trans e1, e2, by rw [e3]; exact k1, ?_⟩
  intro hd
  have := C04_date_jd_date y m d hv0 hr
  rw [← k2 hd, e1] at this
  simpa using this

/-- A float64 from 2ⁿ on is a multiple of 2ⁿ⁻⁵². -/
theorem rep_mult {a : ℝ} (ha : Rep a) {n : ℤ} (h : 2 ^ n ≤ |a|) : ∃ j : ℤ, a = j * 2 ^ (n - 52) := by
  obtain ⟨m, k, e, hm, hk⟩ := ha
  have hp := two_zpow_pos k
  have hm' : |(m : ℝ)| ≤ 2 ^ (53 : ℤ) := by
    have : ((|m| : ℤ) : ℝ) ≤ ((2 ^ 53 : ℤ) : ℝ) := Int.cast_le.mpr hm
    push_cast at this
    norm_num at this ⊢
    exact this
  by_cases hk2 : n - 52 ≤ k
  · have hn : (((k - (n - 52)).toNat : ℕ) : ℤ) = k - (n - 52) := Int.toNat_of_nonneg (by omega)
    refine ⟨m * 2 ^ (k - (n - 52)).toNat, ?_⟩
    push_cast
    rw [mul_assoc, ← zpow_natCast (2 : ℝ), hn, ← zpow_add₀ (by norm_num), e]
    congr 2; ring
  · push Not at hk2
    have h1 : (2 : ℝ) ^ n ≤ 2 ^ (53 + k) := by
      refine h.trans ?_
      rw [e, abs_mul, abs_of_pos hp, zpow_add₀ (by norm_num)]
      exact mul_le_mul_of_nonneg_right hm' hp.le
    have h2 := (zpow_le_zpow_iff_right₀ (by norm_num : (1 : ℝ) < 2)).mp h1
    have hk3 : k = n - 53 := by omega
    have h3 : |(m : ℝ)| = 2 ^ (53 : ℤ) := by
      refine le_antisymm hm' ?_
      rw [e, abs_mul, abs_of_pos hp, show n = 53 + k by omega, zpow_add₀ (by norm_num)] at h
      exact le_of_mul_le_mul_right h hp
    have h4 : (2 : ℝ) ^ (n - 52) = 2 ^ k * 2 := by
      rw [hk3, show n - 52 = n - 53 + 1 by ring, zpow_add₀ (by norm_num)]; norm_num
    rcases abs_choice (m : ℝ) with h5 | h5
    · refine ⟨2 ^ 52, ?_⟩
      rw [e, ← h5, h3, h4]; push_cast; norm_num; ring
    · refine ⟨-2 ^ 52, ?_⟩
      rw [e, show (m : ℝ) = -|(m : ℝ)| by rw [h5]; ring, h3, h4]; push_cast; norm_num; ring

/-- **C166.**  From the Julian day 2²¹ (1029 September) to 2²² (6771 September) the day of the week is computed without rounding. -/
theorem C166_dayOfWeek (jd : ℝ) (hR : Rep jd) (h0 : 2 ^ 21 ≤ jd) (h1 : jd ≤ 2 ^ 22 - 2) : Julian64.DayOfWeek jd = DayOfWeek jd := by
  unfold Julian64.DayOfWeek DayOfWeek
  have hp : 0 ≤ jd := by linarith [show (0 : ℝ) ≤ 2 ^ 21 by positivity]
  obtain ⟨j, hj⟩ := rep_mult hR (n := 21) (by rw [abs_of_nonneg hp]; exact_mod_cast h0)
  rw [show (21 : ℤ) - 52 = -31 by norm_num] at hj
  rw [fl_rep (rep_of (k := -31) (j + 3 * 2 ^ 30) (by norm_num) (by rw [hj]; push_cast; norm_num; ring) (by
    rw [abs_of_nonneg (by linarith)]; norm_num at h1 ⊢; linarith))]

/-- At the end of a day rounding may reach the next one: 2⁻⁴⁰ day before the year 2000 the date returned is 2000 January 1.0. -/
theorem C166_midnight : Julian64.JDToCalendar (Julian64.CalendarGregorianToJD 1999 12 (32 - 2 ^ (-40 : ℤ))) = (2000, 1, 1) := by
  have hg : gregN 1999 12 0 = 2451513 := by decide
  have h0 : (0 : ℝ) ≤ 32 - 2 ^ (-40 : ℤ) := by norm_num
  have h1 : (32 : ℝ) - 2 ^ (-40 : ℤ) ≤ 32 := by norm_num
  obtain ⟨e, -⟩ := gregJD64 1999 12 (32 - 2 ^ (-40 : ℤ)) (by norm_num) (by norm_num) (by norm_num) (by norm_num) h0 h1
  obtain ⟨q1, q2⟩ := greg_half 1999 12 (32 - 2 ^ (-40 : ℤ)) (by norm_num) (by norm_num) (by norm_num) (by norm_num) h0 h1
  have hf : fl (((gregN 1999 12 0 + 1524 : ℤ) : ℝ) + (32 - 2 ^ (-40 : ℤ))) = 2453069 := by
    rw [hg]
    push_cast
    generalize hx : (2453037 : ℝ) + (32 - 2 ^ (-40 : ℤ)) = x
    have hR : Rep ((2453069 : ℤ) : ℝ) := rep_int (by norm_num)
    have hb := fl_best x hR
    have hlo : (2453000 : ℝ) ≤ fl x := by
      have := le_fl (rep_int (n := 2453000) (by norm_num)) (x := x) (by rw [← hx]; push_cast; norm_num)
      push_cast at this; exact this
    obtain ⟨j, hj⟩ := rep_mult (rep_fl x) (n := 21) (by rw [abs_of_nonneg (by linarith)]; norm_num; linarith)
    rw [show (21 : ℤ) - 52 = -31 by norm_num] at hj
    have h2 : |fl x - x| ≤ 2 ^ (-40 : ℤ) := by
      refine hb.trans ?_
      rw [← hx]; push_cast; norm_num
    rw [hj] at h2 ⊢
    have h3 : |((j - 2453069 * 2 ^ 31 : ℤ) : ℝ)| < 1 := by
      rw [← hx] at h2
      push_cast
      rw [abs_le] at h2
      rw [abs_lt]
      norm_num at h2 ⊢
      constructor <;> linarith
    have h4 : j = 2453069 * 2 ^ 31 := by
      have : |j - 2453069 * 2 ^ 31| < 1 := by exact_mod_cast h3
      rw [Int.abs_lt_one_iff] at this
      linarith
    rw [h4]; push_cast; norm_num
  rw [hf] at e
  have hc := (cal64 (Julian64.CalendarGregorianToJD 1999 12 (32 - 2 ^ (-40 : ℤ))) (by rw [q2]; linarith)).1
  rw [q2, add_sub_cancel_right] at hc
  rw [hc, e]
  have hl : monthLen (LeapG 2000) 1 = 31 := by decide
  have hq := C04_date_jd_date 2000 1 1 ⟨by norm_num, by norm_num, by norm_num, by rw [hl]; norm_num⟩ (Or.inl (by norm_num))
  rw [CalendarGregorianToJD_eq, show gregN 2000 1 0 = 2451544 by decide] at hq
  rw [← hq]
  congr 1
  push_cast; norm_num

/-! Times -/

/-- **C166.**  The Julian day of a time is right to 2⁻³² day and 2⁻⁴⁹ day. -/
theorem C166_time (lib : Lib) (h : lib.Ok) (t : ℤ) (hy : -4700 ≤ (lib.ym t).1) (hy' : (lib.ym t).1 ≤ 6700) :
    |Julian64.TimeToJD lib t - (2451544.5 + (t : ℝ) / 86400000000000)| ≤ 2 ^ (-32 : ℤ) + 2 ^ (-49 : ℤ) ∧
    ∃ d, 0 ≤ d ∧ d ≤ 32 ∧ Julian64.TimeToJD lib t = Julian64.CalendarGregorianToJD (lib.ym t).1 (lib.ym t).2 d := by
  obtain ⟨m1, m2⟩ := h.month t
  have hst := h.start t
  have hsp := h.stop t
  have h31 : monthLen (LeapG (lib.ym t).1) (lib.ym t).2 ≤ 31 := by unfold monthLen; split_ifs <;> norm_num
  have hb : 0 ≤ t - lib.date0 (lib.ym t).1 (lib.ym t).2 ∧ t - lib.date0 (lib.ym t).1 (lib.ym t).2 ≤ 32 * dayNs := by
    rw [h.date0 _ _ m1 m2]
    have a1 := midnight_day (lib.ym t).1 (lib.ym t).2 1 0
    have a2 := midnight_day (lib.ym t).1 (lib.ym t).2 (monthLen (LeapG (lib.ym t).1) (lib.ym t).2 + 1) 0
    unfold dayNs at *
    constructor <;> omega
  have lin := C135_linear lib h t
  unfold TimeToJD at lin
  unfold Julian64.TimeToJD
  simp only at lin ⊢
  generalize t - lib.date0 (lib.ym t).1 (lib.ym t).2 = D at *
  have hD : fl (D : ℝ) = D := fl_rep (rep_int (by rw [abs_of_nonneg hb.1]; unfold dayNs at hb; omega))
  have b0 : (0 : ℝ) ≤ (D : ℝ) / (dayNs : ℝ) := div_nonneg (by exact_mod_cast hb.1) (by unfold dayNs; norm_num)
  have b1 : (D : ℝ) / (dayNs : ℝ) ≤ 32 := by
    rw [div_le_iff₀ (by unfold dayNs; norm_num)]; exact_mod_cast hb.2
  rw [hD]
  generalize (D : ℝ) / (dayNs : ℝ) = x at *
  have f0 : 0 ≤ fl x := by
    have := le_fl (rep_int (n := 0) (by norm_num)) (x := x) (by push_cast; exact b0)
    push_cast at this; exact this
  have f1 : fl x ≤ 32 := by
    have := fl_le (rep_int (n := 32) (by norm_num)) (x := x) (by push_cast; exact b1)
    push_cast at this; exact this
  refine ⟨?_, _, f0, f1, rfl⟩
  have k1 := (C166_gregorian _ _ (fl x) hy hy' m1 m2 f0 f1).1
  have k2 : |fl x - x| ≤ 2 ^ (-49 : ℤ) := by
    rcases eq_or_lt_of_le b1 with e | hlt
    · have : fl x = x := by rw [e]; exact fl_rep (by exact_mod_cast rep_int (n := 32) (by norm_num))
      rw [this, sub_self, abs_zero]; positivity
    · have := fl_near_lt (x := x) (n := 5) (by rw [abs_of_nonneg b0]; norm_num; exact hlt) (by norm_num)
      rwa [show (5 : ℤ) - 54 = -49 by norm_num] at this
  rw [← lin]
  rw [CalendarGregorianToJD_eq] at k1 ⊢
  rw [show Julian64.CalendarGregorianToJD (lib.ym t).1 (lib.ym t).2 (fl x) - ((gregN (lib.ym t).1 (lib.ym t).2 0 : ℝ) + x - 0.5) =
    (Julian64.CalendarGregorianToJD (lib.ym t).1 (lib.ym t).2 (fl x) - ((gregN (lib.ym t).1 (lib.ym t).2 0 : ℝ) + fl x - 0.5)) + (fl x - x) by ring]
  exact (abs_add_le _ _).trans (add_le_add k1 k2)

/-- The instant of a calendar day in float64. -/
theorem time_of_day {d : ℝ} (h0 : 0 ≤ d) (h1 : d < 32) : |(trunc (fl (fl (d * 24) * 3600000000000)) : ℝ) - d * 86400000000000| ≤ 2 := by
  have a1 : |fl (d * 24) - d * 24| ≤ 2 ^ (-44 : ℤ) := by
    have := fl_near_lt (x := d * 24) (n := 10) (by rw [abs_of_nonneg (by positivity)]; norm_num; linarith) (by norm_num)
    rwa [show (10 : ℤ) - 54 = -44 by norm_num] at this
  have a2 : 0 ≤ fl (d * 24) := by
    have := le_fl (rep_int (n := 0) (by norm_num)) (x := d * 24) (by push_cast; positivity)
    push_cast at this; exact this
  have a3 : fl (d * 24) ≤ 768 := by
    have := fl_le (rep_int (n := 768) (by norm_num)) (x := d * 24) (by push_cast; linarith)
    push_cast at this; exact this
  generalize fl (d * 24) = e at *
  have a4 : |fl (e * 3600000000000) - e * 3600000000000| ≤ 2 ^ (-2 : ℤ) := by
    have := fl_near_lt (x := e * 3600000000000) (n := 52) (by rw [abs_of_nonneg (by positivity)]; norm_num; linarith) (by norm_num)
    rwa [show (52 : ℤ) - 54 = -2 by norm_num] at this
  have a5 : 0 ≤ fl (e * 3600000000000) := by
    have := le_fl (rep_int (n := 0) (by norm_num)) (x := e * 3600000000000) (by push_cast; positivity)
    push_cast at this; exact this
  generalize fl (e * 3600000000000) = g at *
  rw [trunc_nonneg a5]
  have b1 := Int.floor_le g
  have b2 := Int.lt_floor_add_one g
  rw [abs_le] at a1 a4 ⊢
  norm_num at a1 a4
  constructor <;> linarith

/-- **C166.**  A time carried to the Julian day and back returns within 20.2 microseconds. -/
theorem C166_time_roundtrip (lib : Lib) (h : lib.Ok) (t : ℤ) (hy : -4700 ≤ (lib.ym t).1) (hy' : (lib.ym t).1 ≤ 6700) :
    |Julian64.JDToTime lib (Julian64.TimeToJD lib t) - t| ≤ 20120 := by
  obtain ⟨m1, m2⟩ := h.month t
  obtain ⟨k1, d, d0, d1, e⟩ := C166_time lib h t hy hy'
  obtain ⟨q1, q2⟩ := greg_half _ _ d hy hy' m1 m2 d0 d1
  rw [← e] at q1 q2
  generalize Julian64.TimeToJD lib t = jd at *
  have hc := (cal64 jd (by rw [q2]; linarith)).2
  rw [q2, add_sub_cancel_right] at hc
  obtain ⟨y', m', d', e1, ⟨v1, v2, v3, v4⟩, e3⟩ := C04_jd_proleptic jd (by linarith)
  have h31 : monthLen (LeapG y') m' ≤ 31 := by unfold monthLen; split_ifs <;> norm_num
  have h31' : (monthLen (LeapG y') m' : ℝ) ≤ 31 := by exact_mod_cast h31
  have td := time_of_day (d := d') (by linarith) (by linarith)
  unfold Julian64.JDToTime
  rw [hc, e1]
  simp only
  rw [h.date0 _ _ v1 v2]
  have hm : (midnight y' m' 0 : ℝ) = (jd - d' - 2451544.5) * 86400000000000 := by
    rw [← e3, C02_gregorian_dayCount _ _ _ v1 v2, midnight_day _ _ 0 1]
    unfold midnight dayNs
    push_cast
    ring
  generalize trunc (fl (fl (d' * 24) * 3600000000000)) = w at *
  have : |((midnight y' m' 0 + w - t : ℤ) : ℝ)| ≤ 20120 := by
    push_cast
    rw [hm]
    rw [abs_le] at *
    norm_num at k1 ⊢
    constructor <;> linarith
  have : ((|midnight y' m' 0 + w - t| : ℤ) : ℝ) ≤ ((20120 : ℤ) : ℝ) := by push_cast; push_cast at this; exact this
  exact Int.cast_le.mp this

/-- Launch of Sputnik, 1957 October 4.8125: a valid date after the reform, its day a multiple of 2⁻³¹. -/
example : ValidInstant LeapG 1957 10 (4.8125 : ℝ) ∧ FromReform 1957 10 (4.8125 : ℝ) ∧ ∃ n : ℤ, (4.8125 : ℝ) = n * 2 ^ (-31 : ℤ) := by
  refine ⟨⟨by norm_num, by norm_num, by norm_num, ?_⟩, Or.inl (by norm_num), 77 * 2 ^ 27, by push_cast; norm_num⟩
  unfold monthLen
  norm_num

/-- The Julian day of J2000 meets the hypotheses of the conversions from a Julian day. -/
example : Rep (2451545 : ℝ) ∧ (2 : ℝ) ^ 21 ≤ 2451545 ∧ (2451545 : ℝ) ≤ 2 ^ 22 - 2 :=
  ⟨by exact_mod_cast rep_int (n := 2451545) (by norm_num), by norm_num, by norm_num⟩

end Verif.Props
