import Verif.Model.Deltat
import Verif.Props.Len3For
import Verif.Props.Julian
import Verif.Lemmas.Series
/-
C76, C77: mean elements of the planets, interpolation of ΔT.
-/
namespace Verif.Props

open Verif.Go Verif.Model Verif.Model.Julian Verif.Model.Interp Verif.Spec

set_option maxRecDepth 8000 in
theorem table10A_length : Deltat.table10A.length = 196 := by
  unfold Deltat.table10A
  simp only [List.length_cons, List.length_nil]

/-- C77: `Interp10A` returns for every instant. -/
theorem C77_total (jde : ℝ) : ∃ v, Deltat.Interp10A jde = some v := by
  unfold Deltat.Interp10A
  obtain ⟨d, -, -, h, -⟩ := C29_selects (Deltat.yearOf jde) Deltat.tableYear1 Deltat.tableYearN Deltat.table10A
    (by rw [table10A_length]; norm_num) (by unfold Deltat.tableYear1 Deltat.tableYearN; norm_num)
  dsimp only
  rw [h]
  exact ⟨_, rfl⟩

/-- On December 31 before noon the fractional year is the number of the next year. -/
theorem yearOf_newYear (y : Int) (d : ℝ) (hy : 1582 < y) (h0 : 31 ≤ d) (h1 : d < 31.5) :
    Deltat.yearOf (CalendarGregorianToJD y 12 d) = y + 1 := by
  have hm : monthLen (LeapG y) 12 = 31 := by simp [monthLen]
  have hv : ValidInstant LeapG y 12 d := by
    unfold ValidInstant
    rw [hm]
    refine ⟨by norm_num, by norm_num, by linarith, ?_⟩
    push_cast
    linarith
  unfold Deltat.yearOf
  rw [C04_date_jd_date y 12 d hv (Or.inl hy)]
  dsimp only
  have ht : trunc (d + 0.5) = 31 := by
    rw [trunc_nonneg (by linarith), Int.floor_eq_iff]
    push_cast
    constructor <;> linarith
  rw [ht]
  cases LeapYearGregorian y with
  | true =>
    have e : DayOfYear y 12 31 true = 366 := rfl
    rw [e]; norm_num
  | false =>
    have e : DayOfYear y 12 31 false = 365 := rfl
    rw [e]; norm_num

/-- C77: in the twelve hours beginning at 0h of December 31, the eve of a tabulated year (that is of "January 0" of the year),
`Interp10A` returns the tabulated value. -/
theorem C77_tabulated (i : ℕ) (hi : i < Deltat.table10A.length) (d : ℝ) (h0 : 31 ≤ d) (h1 : d < 31.5) :
    Deltat.Interp10A (CalendarGregorianToJD (1619 + 2 * i) 12 d) = some Deltat.table10A[i] := by
  unfold Deltat.Interp10A
  dsimp only
  rw [yearOf_newYear _ d (by omega) h0 h1]
  obtain ⟨d3, hr, hv⟩ := C29_tabulated Deltat.tableYear1 Deltat.tableYearN Deltat.table10A
    (by rw [table10A_length]; norm_num) (by unfold Deltat.tableYear1 Deltat.tableYearN; norm_num) i hi
  have e : Deltat.tableYear1 + (i : ℝ) * ((Deltat.tableYearN - Deltat.tableYear1) / ((Deltat.table10A.length : ℝ) - 1)) =
      ((1619 + 2 * (i : ℤ) : ℤ) : ℝ) + 1 := by
    rw [table10A_length]
    unfold Deltat.tableYear1 Deltat.tableYearN
    push_cast
    ring
  rw [e] at hr hv
  rw [hr]
  dsimp only
  rw [hv]

/-- A case of `C77_tabulated`: ΔT for 1990. -/
theorem C77_example : Deltat.Interp10A (CalendarGregorianToJD 1989 12 31.25) = some 56.9 := by
  have := C77_tabulated 185 (by rw [table10A_length]; norm_num) 31.25 (by norm_num) (by norm_num)
  have e : (1619 + 2 * ((185 : ℕ) : ℤ)) = 1989 := by norm_num
  rw [e] at this
  rw [this]
  rfl

/-- The index of a planet other than Earth. -/
def OtherPlanet (p : ℕ) : Prop := p < 8 ∧ p ≠ 2

/-- C76 is false: for Earth (index 2) the function panics, at every instant. -/
theorem C76_violation (jde : ℝ) : PlanetElements.Mean 2 jde = none ∧ PlanetElements.Node 2 jde = none := by
  constructor
  · unfold PlanetElements.Mean PlanetElements.cMean
    simp [Horner]
  · unfold PlanetElements.Node PlanetElements.cMean
    simp [Horner]

/-- C76, largest part: for the seven other planets `Mean` returns, the longitude is in [0, 2π), and `Inc` and `Node` return the
fields of the same name; `Inc` also returns for Earth.  Missing for the full property: Earth. -/
theorem C76_other_partial (p : ℕ) (hp : OtherPlanet p) (jde : ℝ) :
    ∃ e, PlanetElements.Mean p jde = some e ∧ PlanetElements.Inc p jde = some e.Inc ∧ PlanetElements.Node p jde = some e.Node ∧
      0 ≤ e.Lon ∧ e.Lon < 2 * Real.pi := by
  obtain ⟨h1, h2⟩ := hp
  have : p = 0 ∨ p = 1 ∨ p = 3 ∨ p = 4 ∨ p = 5 ∨ p = 6 ∨ p = 7 := by omega
  unfold PlanetElements.Mean PlanetElements.Inc PlanetElements.Node PlanetElements.cMean
  rcases this with rfl | rfl | rfl | rfl | rfl | rfl | rfl <;>
    exact ⟨_, rfl, rfl, rfl, (mod1_eq _).1, (mod1_eq _).2.1⟩

/-- C76: in the thirty centuries either side of 2000 the elements returned describe an ellipse: the semimajor axis is positive and the
eccentricity between 0 and 1. -/
theorem C76_ellipse_partial (p : ℕ) (jde : ℝ) (e : PlanetElements.Elements) (h : PlanetElements.Mean p jde = some e)
    (hj : |J2000Century jde| ≤ 30) : 0 < e.Axis ∧ 0 < e.Ecc ∧ e.Ecc < 1 := by
  have hp : p = 0 ∨ p = 1 ∨ p = 2 ∨ p = 3 ∨ p = 4 ∨ p = 5 ∨ p = 6 ∨ p = 7 := by
    by_contra hc
    have : PlanetElements.cMean.length ≤ p := by
      show 8 ≤ p
      omega
    unfold PlanetElements.Mean at h
    rw [List.getElem?_eq_none this] at h
    simp at h
  unfold PlanetElements.Mean PlanetElements.cMean at h
  generalize J2000Century jde = T at *
  obtain ⟨t1, t2⟩ := abs_le.1 hj
  have q0 : 0 ≤ T ^ 2 := sq_nonneg T
  have q1 : T ^ 2 ≤ 900 := by nlinarith
  have c1 : T ^ 3 ≤ 27000 := by nlinarith [mul_nonneg q0 (by linarith : 0 ≤ 30 - T)]
  have c0 : -27000 ≤ T ^ 3 := by nlinarith [mul_nonneg q0 (by linarith : 0 ≤ 30 + T)]
  rcases hp with rfl | rfl | rfl | rfl | rfl | rfl | rfl | rfl
  case inr.inr.inl => simp [Horner] at h
  all_goals
    simp [Horner] at h
    rw [← h]
    refine ⟨?_, ?_, ?_⟩
    · first
        | norm_num; done
        | (norm_num; nlinarith)
    · linarith
    · linarith

/-- Second differences of a list are at most 2 in absolute value, first differences at most 9. -/
def SmoothList : List ℝ → Prop
  | a :: b :: c :: l => |b - a| ≤ 9 ∧ |c - 2 * b + a| ≤ 2 ∧ SmoothList (b :: c :: l)
  | [a, b] => |b - a| ≤ 9
  | _ => True

theorem smooth_get : ∀ (l : List ℝ), SmoothList l → (∀ i (h : i + 1 < l.length), |l[i + 1] - l[i]| ≤ 9) ∧
    ∀ i (h : i + 2 < l.length), |l[i + 2] - 2 * l[i + 1] + l[i]| ≤ 2
  | [], _ => ⟨fun i h => absurd h (by simp), fun i h => absurd h (by simp)⟩
  | [a], _ => ⟨fun i h => absurd h (by simp), fun i h => absurd h (by simp)⟩
  | [a, b], h => by
    refine ⟨fun i hi => ?_, fun i hi => absurd hi (by simp)⟩
    have : i = 0 := by simp at hi; omega
    subst this
    exact h
  | a :: b :: c :: l, h => by
    obtain ⟨h1, h2, h3⟩ := h
    obtain ⟨k1, k2⟩ := smooth_get (b :: c :: l) h3
    refine ⟨fun i hi => ?_, fun i hi => ?_⟩
    · cases i with
      | zero => exact h1
      | succ i => exact k1 i (by simpa using hi)
    · cases i with
      | zero => exact h2
      | succ i => exact k2 i (by simpa using hi)

set_option maxRecDepth 100000 in
set_option maxHeartbeats 4000000 in
theorem table10A_smooth : SmoothList Deltat.table10A := by
  unfold Deltat.table10A
  simp only [SmoothList]
  norm_num [abs_le]

/-- C77: the table is smooth (no misplaced digit): values for the ends of years two apart differ by at most 9 s, and the change over two
years differs from that over the following two years by at most 2 s. -/
theorem C77_smooth (i : ℕ) (d d' d'' : ℝ) (h0 : 31 ≤ d) (h1 : d < 31.5) (h0' : 31 ≤ d') (h1' : d' < 31.5) (h0'' : 31 ≤ d'') (h1'' : d'' < 31.5)
    (hi : i + 2 < 196) :
    ∃ u v w, Deltat.Interp10A (CalendarGregorianToJD (1619 + 2 * i) 12 d) = some u ∧
      Deltat.Interp10A (CalendarGregorianToJD (1621 + 2 * i) 12 d') = some v ∧
      Deltat.Interp10A (CalendarGregorianToJD (1623 + 2 * i) 12 d'') = some w ∧
      |v - u| ≤ 9 ∧ |w - v| ≤ 9 ∧ |w - 2 * v + u| ≤ 2 := by
  have hl := table10A_length
  obtain ⟨k1, k2⟩ := smooth_get _ table10A_smooth
  refine ⟨_, _, _, C77_tabulated i (by omega) d h0 h1, ?_, ?_, k1 i (by omega), k1 (i + 1) (by omega), k2 i (by omega)⟩
  · have := C77_tabulated (i + 1) (by omega) d' h0' h1'
    rwa [show (1619 + 2 * ((i + 1 : ℕ) : ℤ) : ℤ) = 1621 + 2 * i by push_cast; ring] at this
  · have := C77_tabulated (i + 2) (by omega) d'' h0'' h1''
    rwa [show (1619 + 2 * ((i + 2 : ℕ) : ℤ) : ℤ) = 1623 + 2 * i by push_cast; ring] at this

end Verif.Props
