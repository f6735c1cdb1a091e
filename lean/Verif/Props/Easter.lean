import Verif.Lemmas.Easter
import Verif.Props.Julian
import Mathlib.Tactic.NormNum.Prime

/-! Properties C09 – C11 of package easter. -/

namespace Verif.Props

open Verif.Go Verif.Model Verif.Model.Julian Verif.Spec Verif.Lemmas

/-- C09.  The Gregorian Easter date is the first Sunday strictly after the Paschal full moon given
by the Clavius epacts. -/
theorem C09_easterGregorian_first_sunday (y : Int) (hy : 0 ≤ y) :
    FirstSundayAfter (SundayG y) (fullMoonG y) (marchDay (Easter.Gregorian y)) := by
  obtain ⟨n, hn, -, -, h1, h2, hs, -⟩ := easterG_facts y hy
  rw [hn]; exact sunday_unique (SundayG y) (sundayG_per y) _ _ h1 h2 hs

/-- C09.  It lies between March 22 and April 25. -/
theorem C09_easterGregorian_range (y : Int) (hy : 0 ≤ y) :
    ((Easter.Gregorian y).1 = 3 ∧ 22 ≤ (Easter.Gregorian y).2 ∧ (Easter.Gregorian y).2 ≤ 31) ∨
    ((Easter.Gregorian y).1 = 4 ∧ 1 ≤ (Easter.Gregorian y).2 ∧ (Easter.Gregorian y).2 ≤ 25) := by
  obtain ⟨n, -, -, -, -, -, -, h⟩ := easterG_facts y hy
  exact h

/-- C09.  Cross package: the weekday computed by package julian for the Easter date is Sunday. -/
theorem C09_easterGregorian_dayOfWeek (y : Int) (hy : 0 ≤ y) :
    DayOfWeek (CalendarGregorianToJD y (Easter.Gregorian y).1 (Easter.Gregorian y).2) = 0 := by
  obtain ⟨n, hn, h22, -, -, -, hs, hr⟩ := easterG_facts y hy
  unfold SundayG at hs
  rw [dayCountG_march] at hs
  have hg : gregN y (Easter.Gregorian y).1 (Easter.Gregorian y).2 = gregN y 3 n := by
    unfold marchDay at hn
    rcases hr with ⟨h3, -, -⟩ | ⟨h4, -, -⟩
    · rw [h3] at hn ⊢; rw [show (Easter.Gregorian y).2 = n by omega]
    · rw [h4] at hn ⊢; rw [show (Easter.Gregorian y).2 = n - 31 by omega]
      unfold gregN shiftYM; norm_num; ring
  have h4 : gregN y 3 n = 365 * y + y / 4 - y / 100 + y / 400 + n + 1721119 := by
    have h := gregN_dayCount y 3 n (by norm_num) (by norm_num)
    have h2 := gregN_dayCount 2000 1 2 (by norm_num) (by norm_num)
    have h3 : gregN 2000 1 2 = 2451546 := by decide
    have h5 := dayCountG_march y n
    omega
  have hjd : CalendarGregorianToJD y (Easter.Gregorian y).1 (Easter.Gregorian y).2 =
      ((gregN y 3 n : Int) : ℝ) - 0.5 := by
    rw [CalendarGregorianToJD_eq, ← hg, gregN_add y _ (Easter.Gregorian y).2]; push_cast; ring
  rw [hjd, C06_dayOfWeek_constant (gregN y 3 n) (by omega) _ (le_refl _) (by linarith)]
  omega

example : Easter.Gregorian 1991 = (3, 31) ∧ Easter.Gregorian 1818 = (3, 22) ∧
    Easter.Gregorian 2038 = (4, 25) ∧ fullMoonG 1991 = 30 := by decide

/-- C10.  The Julian Easter date is the first Sunday strictly after the full moon of the 19 year
table. -/
theorem C10_easterJulian_first_sunday (y : Int) (hy : 0 ≤ y) :
    FirstSundayAfter (SundayJ y) (fullMoonJ y) (marchDay (Easter.Julian y)) := by
  obtain ⟨n, hn, -, -, h1, h2, hs, -⟩ := easterJ_facts y hy
  rw [hn]; exact sunday_unique (SundayJ y) (sundayJ_per y) _ _ h1 h2 hs

/-- C10.  It lies between March 22 and April 25. -/
theorem C10_easterJulian_range (y : Int) (hy : 0 ≤ y) :
    ((Easter.Julian y).1 = 3 ∧ 22 ≤ (Easter.Julian y).2 ∧ (Easter.Julian y).2 ≤ 31) ∨
    ((Easter.Julian y).1 = 4 ∧ 1 ≤ (Easter.Julian y).2 ∧ (Easter.Julian y).2 ≤ 25) := by
  obtain ⟨n, -, -, -, -, -, -, h⟩ := easterJ_facts y hy
  exact h

/-- C10.  Cross package: the weekday computed by package julian for the Easter date is Sunday. -/
theorem C10_easterJulian_dayOfWeek (y : Int) (hy : 0 ≤ y) :
    DayOfWeek (CalendarJulianToJD y (Easter.Julian y).1 (Easter.Julian y).2) = 0 := by
  obtain ⟨n, hn, h22, -, -, -, hs, hr⟩ := easterJ_facts y hy
  unfold SundayJ at hs
  rw [dayCountJ_march] at hs
  have hg : julN y (Easter.Julian y).1 (Easter.Julian y).2 = julN y 3 n := by
    unfold marchDay at hn
    rcases hr with ⟨h3, -, -⟩ | ⟨h4, -, -⟩
    · rw [h3] at hn ⊢; rw [show (Easter.Julian y).2 = n by omega]
    · rw [h4] at hn ⊢; rw [show (Easter.Julian y).2 = n - 31 by omega]
      unfold julN shiftYM; norm_num; ring
  have h4 : julN y 3 n = 365 * y + y / 4 + n + 1721117 := by
    have h := julN_dayCount y 3 n (by norm_num) (by norm_num)
    have h2 := julN_dayCount 1582 10 7 (by norm_num) (by norm_num)
    have h3 : julN 1582 10 7 = 2299163 := by decide
    have h5 := dayCountJ_march y n
    omega
  have hjd : CalendarJulianToJD y (Easter.Julian y).1 (Easter.Julian y).2 =
      ((julN y 3 n : Int) : ℝ) - 0.5 := by
    rw [CalendarJulianToJD_eq, ← hg, julN_add y _ (Easter.Julian y).2]; push_cast; ring
  rw [hjd, C06_dayOfWeek_constant (julN y 3 n) (by omega) _ (le_refl _) (by linarith)]
  omega

example : Easter.Julian 179 = (4, 12) ∧ Easter.Julian 711 = (4, 12) ∧ Easter.Julian 1243 = (4, 12) := by
  decide

/-- `P` is a period of `f` on the years `0, 1, 2, …`. -/
def IsPeriod (f : Int → Int × Int) (P : Nat) : Prop := ∀ y : Int, 0 ≤ y → f (y + P) = f y

/-- C11.  Gregorian Easter repeats every 5,700,000 years. -/
theorem C11_easterGregorian_period : IsPeriod Easter.Gregorian 5700000 := by
  intro y hy
  obtain ⟨a, b, c, h, l, m, ha, hb, hc, hh, hl, hm, hG⟩ := easterG_eq y hy
  obtain ⟨a', b', c', h', l', m', ha', hb', hc', hh', hl', hm', hG'⟩ :=
    easterG_eq (y + (5700000 : Nat)) (by omega)
  push_cast at *
  have ea : a' = a := by omega
  have eb : b' = b + 57000 := by omega
  have ec : c' = c := by omega
  have e25 : (b' + 8) / 25 = (b + 8) / 25 + 2280 := by omega
  have e3 : (b' - (b' + 8) / 25 + 1) / 3 = (b - (b + 8) / 25 + 1) / 3 + 18240 := by
    rw [e25, eb]; omega
  have e4 : b' / 4 = b / 4 + 14250 := by omega
  have eh : h' = h := by
    rw [hh, hh', e3, e4, ea, eb]
    generalize (b - (b + 8) / 25 + 1) / 3 = g
    generalize b / 4 = d
    omega
  have e44 : b' % 4 = b % 4 := by omega
  have el : l' = l := by rw [hl, hl', e44, ec, eh]
  have em : m' = m := by rw [hm, hm', ea, eh, el]
  rw [hG, hG', eh, el, em]

/-- C11.  Julian Easter repeats every 532 years. -/
theorem C11_easterJulian_period : IsPeriod Easter.Julian 532 := by
  intro y hy
  unfold Easter.Julian
  have hy' : 0 ≤ y + (532 : Nat) := by omega
  simp only [rem_nonneg_eq hy, rem_nonneg_eq hy']
  have h1 : (y + (532 : Nat)) % 4 = y % 4 := by omega
  have h2 : (y + (532 : Nat)) % 7 = y % 7 := by omega
  have h3 : (y + (532 : Nat)) % 19 = y % 19 := by omega
  rw [h1, h2, h3]

theorem minimal_period (f : Int → Int × Int) (N : Nat) (hN : N ≠ 0) (hper : IsPeriod f N)
    (hprime : ∀ p : Nat, p.Prime → p ∣ N → ¬ IsPeriod f (N / p)) (P : Nat) (hP : IsPeriod f P) :
    N ∣ P := by
  have key := period_gcd (fun n : Nat => f n) P N
    (fun n => by have := hP n (by omega); push_cast; exact this)
    (fun n => by have := hper n (by omega); push_cast; exact this)
  have hg : IsPeriod f (Nat.gcd P N) := by
    intro y hy
    have := key y.toNat
    push_cast at this
    rwa [Int.toNat_of_nonneg hy] at this
  by_contra hnd
  have hgn : Nat.gcd P N ≠ N := fun h => hnd (h ▸ Nat.gcd_dvd_left P N)
  obtain ⟨k, hk⟩ := Nat.gcd_dvd_right P N
  have hk1 : k ≠ 1 := fun h => hgn (by rw [h, Nat.mul_one] at hk; exact hk.symm)
  obtain ⟨p, hp, hpk⟩ := Nat.exists_prime_and_dvd hk1
  obtain ⟨j, hj⟩ := hpk
  have hpN : p ∣ N := ⟨Nat.gcd P N * j, by
    calc N = Nat.gcd P N * k := hk
      _ = p * (Nat.gcd P N * j) := by rw [hj]; ring⟩
  apply hprime p hp hpN
  have hdiv : N / p = j * Nat.gcd P N := by
    apply Nat.div_eq_of_eq_mul_left hp.pos
    calc N = Nat.gcd P N * k := hk
      _ = j * Nat.gcd P N * p := by rw [hj]; ring
  rw [hdiv]
  have mul : ∀ j : Nat, IsPeriod f (j * Nat.gcd P N) := by
    intro j
    induction j with
    | zero => intro y _; simp
    | succ j ih =>
      intro y hy
      have h1 := hg (y + (j * Nat.gcd P N : Nat)) (by positivity)
      rw [ih y hy] at h1
      rw [← h1]; congr 1; push_cast; ring
  exact mul j

/-- C11.  5,700,000 years is the shortest period: every period is a multiple of it. -/
theorem C11_easterGregorian_minimal (P : Nat) (hP : IsPeriod Easter.Gregorian P) : 5700000 ∣ P := by
  apply minimal_period _ _ (by norm_num) C11_easterGregorian_period _ P hP
  intro p hp hd hq
  have hfac : (5700000 : Nat) = 2 ^ 5 * 3 * 5 ^ 5 * 19 := by norm_num
  have hp' : p = 2 ∨ p = 3 ∨ p = 5 ∨ p = 19 := by
    rw [hfac] at hd
    rcases (Nat.Prime.dvd_mul hp).1 hd with hd | hd
    · rcases (Nat.Prime.dvd_mul hp).1 hd with hd | hd
      · rcases (Nat.Prime.dvd_mul hp).1 hd with hd | hd
        · left; exact (Nat.prime_dvd_prime_iff_eq hp Nat.prime_two).1 (hp.dvd_of_dvd_pow hd)
        · right; left; exact (Nat.prime_dvd_prime_iff_eq hp Nat.prime_three).1 hd
      · right; right; left; exact (Nat.prime_dvd_prime_iff_eq hp Nat.prime_five).1 (hp.dvd_of_dvd_pow hd)
    · right; right; right; exact (Nat.prime_dvd_prime_iff_eq hp (by norm_num)).1 hd
  rcases hp' with rfl | rfl | rfl | rfl <;>
  · have := hq 0 (le_refl _)
    revert this
    decide

/-- C11.  532 years is the shortest period of the Julian Easter. -/
theorem C11_easterJulian_minimal (P : Nat) (hP : IsPeriod Easter.Julian P) : 532 ∣ P := by
  apply minimal_period _ _ (by norm_num) C11_easterJulian_period _ P hP
  intro p hp hd hq
  have hfac : (532 : Nat) = 2 ^ 2 * 7 * 19 := by norm_num
  have hp' : p = 2 ∨ p = 7 ∨ p = 19 := by
    rw [hfac] at hd
    rcases (Nat.Prime.dvd_mul hp).1 hd with hd | hd
    · rcases (Nat.Prime.dvd_mul hp).1 hd with hd | hd
      · left; exact (Nat.prime_dvd_prime_iff_eq hp Nat.prime_two).1 (hp.dvd_of_dvd_pow hd)
      · right; left; exact (Nat.prime_dvd_prime_iff_eq hp (by norm_num)).1 hd
    · right; right; exact (Nat.prime_dvd_prime_iff_eq hp (by norm_num)).1 hd
  rcases hp' with rfl | rfl | rfl <;>
  · have := hq 0 (le_refl _)
    revert this
    decide

end Verif.Props
