import Verif.Model.Easter
import Verif.Spec.Easter
import Verif.Lemmas.JulianReal
import Mathlib.Order.Interval.Finset.Basic
import Mathlib.Data.Int.Interval

namespace Verif.Lemmas

open Verif.Go Verif.Spec Verif.Model Verif.Model.Julian

/-- `Gregorian` on years `≥ 0` with floor division. -/
theorem easterG_eq (y : Int) (hy : 0 ≤ y) :
    ∃ a b c h l m : Int, a = y % 19 ∧ b = y / 100 ∧ c = y % 100 ∧
      h = (19 * a + b - b / 4 - (b - (b + 8) / 25 + 1) / 3 + 15) % 30 ∧
      l = (32 + 2 * (b % 4) + 2 * (c / 4) - h - c % 4) % 7 ∧
      m = (a + 11 * h + 22 * l) / 451 ∧
      Easter.Gregorian y = ((h + l - 7 * m + 114) / 31, (h + l - 7 * m + 114) % 31 + 1) := by
  refine ⟨_, _, _, _, _, _, rfl, rfl, rfl, rfl, rfl, rfl, ?_⟩
  unfold Easter.Gregorian
  have hb : 0 ≤ y / 100 := by omega
  have h25 : 0 ≤ y / 100 - (y / 100 + 8) / 25 + 1 := by omega
  have hN : 0 ≤ 19 * (y % 19) + y / 100 - y / 100 / 4 - (y / 100 - (y / 100 + 8) / 25 + 1) / 3 + 15 := by
    omega
  simp only [rem_nonneg_eq hy, quo_nonneg_eq hy, quo_nonneg_eq hb, rem_nonneg_eq hb,
    quo_nonneg_eq (show 0 ≤ y / 100 + 8 by omega), quo_nonneg_eq h25, rem_nonneg_eq hN,
    quo_nonneg_eq (show 0 ≤ y % 100 by omega), rem_nonneg_eq (show 0 ≤ y % 100 by omega)]
  obtain ⟨h, hh⟩ : ∃ h, (19 * (y % 19) + y / 100 - y / 100 / 4 -
    (y / 100 - (y / 100 + 8) / 25 + 1) / 3 + 15) % 30 = h := ⟨_, rfl⟩
  have hh0 : 0 ≤ h := hh ▸ Int.emod_nonneg _ (by norm_num)
  have hh29 : h < 30 := hh ▸ Int.emod_lt_of_pos _ (by norm_num)
  rw [hh]
  have hl : 0 ≤ 32 + 2 * (y / 100 % 4) + 2 * (y % 100 / 4) - h - y % 100 % 4 := by
    have x1 : 0 ≤ y / 100 % 4 := Int.emod_nonneg _ (by norm_num)
    have x2 : 0 ≤ y % 100 / 4 := Int.ediv_nonneg (Int.emod_nonneg _ (by norm_num)) (by norm_num)
    have x3 : y % 100 % 4 < 4 := Int.emod_lt_of_pos _ (by norm_num)
    linarith
  rw [rem_nonneg_eq hl]
  obtain ⟨l, hl⟩ : ∃ l, (32 + 2 * (y / 100 % 4) + 2 * (y % 100 / 4) - h - y % 100 % 4) % 7 = l := ⟨_, rfl⟩
  have hl0 : 0 ≤ l := hl ▸ Int.emod_nonneg _ (by norm_num)
  have hl6 : l < 7 := hl ▸ Int.emod_lt_of_pos _ (by norm_num)
  have ha0 : 0 ≤ y % 19 := Int.emod_nonneg _ (by norm_num)
  have ha18 : y % 19 < 19 := Int.emod_lt_of_pos _ (by norm_num)
  rw [hl, quo_nonneg_eq (show 0 ≤ y % 19 + 11 * h + 22 * l by linarith)]
  obtain ⟨m, hm⟩ : ∃ m, (y % 19 + 11 * h + 22 * l) / 451 = m := ⟨_, rfl⟩
  clear hN h25 hb
  have hn : 0 ≤ h + l - 7 * m + 114 := by clear hl; clear hh; omega
  rw [hm, quo_nonneg_eq hn, rem_nonneg_eq hn]

theorem lunar_correction (b : Int) (hb : 0 ≤ b) :
    (b - (b + 8) / 25 + 1) / 3 = (8 * (b + 1) + 5) / 25 := by
  obtain ⟨u, v, hv0, hv, rfl⟩ : ∃ u v : Int, 0 ≤ v ∧ v < 75 ∧ b = 75 * u + v :=
    ⟨b / 75, b % 75, by omega, by omega, by omega⟩
  have e1 : (75 * u + v + 8) / 25 = 3 * u + (v + 8) / 25 := by omega
  have e2 : (8 * (75 * u + v + 1) + 5) / 25 = 24 * u + (8 * (v + 1) + 5) / 25 := by omega
  rw [e1, e2]
  have e3 : (75 * u + v - (3 * u + (v + 8) / 25) + 1) / 3 = 24 * u + (v - (v + 8) / 25 + 1) / 3 := by
    omega
  rw [e3]
  have : ∀ v ∈ Finset.Ico (0 : Int) 75, (v - (v + 8) / 25 + 1) / 3 = (8 * (v + 1) + 5) / 25 := by
    decide +kernel
  rw [this v (Finset.mem_Ico.2 ⟨hv0, hv⟩)]

/-- The Paschal full moon in terms of the intermediate `h` of the algorithm. -/
theorem fullMoonG_eq (y h : Int) (hy : 0 ≤ y)
    (hh : h = (19 * (y % 19) + y / 100 - y / 100 / 4 - (y / 100 - (y / 100 + 8) / 25 + 1) / 3 + 15) % 30) :
    fullMoonG y = if h = 29 ∨ (h = 28 ∧ 10 < y % 19) then 20 + h else 21 + h := by
  have hlc := lunar_correction (y / 100) (by omega)
  rw [hlc] at hh
  have hrel : (epactG y + h - 23) % 30 = 0 := by
    unfold epactG
    dsimp only
    have e1 : 3 * (y / 100 + 1) / 4 = y / 100 - y / 100 / 4 := by omega
    rw [e1]; omega
  have hE0 : 0 ≤ epactG y := by unfold epactG; dsimp only; omega
  have hE29 : epactG y ≤ 29 := by unfold epactG; dsimp only; omega
  have hh0 : 0 ≤ h := by omega
  have hh29 : h ≤ 29 := by omega
  unfold fullMoonG epactG'
  generalize epactG y = E at *
  clear hh hlc
  split_ifs <;> omega

theorem dayCountG_march (y n : Int) : dayCount LeapG y 3 n - dayCount LeapG 2000 1 2 =
    365 * y + y / 4 - y / 100 + y / 400 + n - 730427 := by
  have h := gregN_dayCount y 3 n (by norm_num) (by norm_num)
  have h2 := gregN_dayCount 2000 1 2 (by norm_num) (by norm_num)
  have h3 : gregN 2000 1 2 = 2451546 := by decide
  have h4 : gregN y 3 n = 365 * y + y / 4 - y / 100 + y / 400 + n + 1721119 := by
    unfold gregN shiftYM
    simp only [y36525]
    norm_num
    omega
  omega

end Verif.Lemmas

namespace Verif.Lemmas

open Verif.Go Verif.Spec Verif.Model Verif.Model.Julian

/-- weekday of a March day in terms of the digits of the year -/
theorem sundayG_iff (y n b c : Int) (hb : b = y / 100) (hc : c = y % 100) :
    SundayG y n ↔ (n - 2 * (b % 4) - 2 * (c / 4) + c % 4 - 33 - 21) % 7 = 0 := by
  unfold SundayG
  rw [dayCountG_march]
  have hy : y = 100 * b + c := by omega
  have h4 : y / 4 = 25 * b + c / 4 := by omega
  have h400 : y / 400 = b / 4 := by omega
  have h100 : y / 100 = b := hb.symm
  rw [h4, h400, h100, hy]
  clear h4 h400 h100 hy hb
  omega

/-- All facts about the result of the Gregorian algorithm. -/
theorem easterG_facts (y : Int) (hy : 0 ≤ y) :
    ∃ n : Int, marchDay (Easter.Gregorian y) = n ∧ 22 ≤ n ∧ n ≤ 56 ∧
      fullMoonG y < n ∧ n ≤ fullMoonG y + 7 ∧ SundayG y n ∧
      ((Easter.Gregorian y).1 = 3 ∧ 22 ≤ (Easter.Gregorian y).2 ∧ (Easter.Gregorian y).2 ≤ 31 ∨
       (Easter.Gregorian y).1 = 4 ∧ 1 ≤ (Easter.Gregorian y).2 ∧ (Easter.Gregorian y).2 ≤ 25) := by
  obtain ⟨a, b, c, h, l, m, ha, hb, hc, hh, hl, hm, hG⟩ := easterG_eq y hy
  have hf := fullMoonG_eq y h hy (by rw [hh, ha, hb])
  have hh0 : 0 ≤ h := hh ▸ Int.emod_nonneg _ (by norm_num)
  have hh29 : h < 30 := hh ▸ Int.emod_lt_of_pos _ (by norm_num)
  have hl0 : 0 ≤ l := hl ▸ Int.emod_nonneg _ (by norm_num)
  have hl6 : l < 7 := hl ▸ Int.emod_lt_of_pos _ (by norm_num)
  have ha0 : 0 ≤ a := ha ▸ Int.emod_nonneg _ (by norm_num)
  have ha18 : a < 19 := ha ▸ Int.emod_lt_of_pos _ (by norm_num)
  have hs := sundayG_iff y (h + l - 7 * m + 22) b c hb hc
  rw [← ha] at hf
  rw [hG]
  refine ⟨h + l - 7 * m + 22, ?_, ?_, ?_, ?_, ?_, ?_, ?_⟩
  · clear hh hl hf hs; unfold marchDay; dsimp only; omega
  · clear hh hl hf hs; omega
  · clear hh hl hf hs; omega
  · rw [hf]; clear hh hl hf hs hG hb hc ha hy; interval_cases l <;> split_ifs <;> omega
  · rw [hf]; clear hh hl hf hs hG hb hc ha hy; interval_cases l <;> split_ifs <;> omega
  · rw [hs]; clear hh hf hs hG hm; omega
  · clear hh hl hf hs hG; dsimp only
    have : 22 ≤ h + l - 7 * m + 22 := by omega
    have : h + l - 7 * m + 22 ≤ 56 := by omega
    omega

theorem sunday_unique (sunday : Int → Prop) (hper : ∀ k, sunday k → ∀ j, sunday j → 7 ∣ j - k)
    (fm n : Int) (h1 : fm < n) (h2 : n ≤ fm + 7) (hs : sunday n) : FirstSundayAfter sunday fm n := by
  refine ⟨h1, hs, ?_⟩
  intro k hk1 hk2 hk
  have := hper k hk n hs
  omega

theorem sundayG_per (y k : Int) (hk : SundayG y k) (j : Int) (hj : SundayG y j) : 7 ∣ j - k := by
  unfold SundayG at *
  rw [dayCountG_march] at *
  omega

theorem dayCountJ_march (y n : Int) : dayCount LeapJ y 3 n - dayCount LeapJ 1582 10 7 =
    365 * y + y / 4 + n - 578046 := by
  have h := julN_dayCount y 3 n (by norm_num) (by norm_num)
  have h2 := julN_dayCount 1582 10 7 (by norm_num) (by norm_num)
  have h3 : julN 1582 10 7 = 2299163 := by decide
  have h4 : julN y 3 n = 365 * y + y / 4 + n + 1721117 := by
    unfold julN shiftYM
    simp only [y36525]
    norm_num
    omega
  omega

theorem sundayJ_per (y k : Int) (hk : SundayJ y k) (j : Int) (hj : SundayJ y j) : 7 ∣ j - k := by
  unfold SundayJ at *
  rw [dayCountJ_march] at *
  omega

theorem fullMoonJ_eq (y : Int) : fullMoonJ y = 21 + (19 * (y % 19) + 15) % 30 := by
  unfold fullMoonJ
  have h0 : 0 ≤ y % 19 := Int.emod_nonneg _ (by norm_num)
  have h1 : y % 19 < 19 := Int.emod_lt_of_pos _ (by norm_num)
  generalize y % 19 = g at *
  interval_cases g <;> rfl

theorem easterJ_facts (y : Int) (hy : 0 ≤ y) :
    ∃ n : Int, marchDay (Easter.Julian y) = n ∧ 22 ≤ n ∧ n ≤ 56 ∧
      fullMoonJ y < n ∧ n ≤ fullMoonJ y + 7 ∧ SundayJ y n ∧
      ((Easter.Julian y).1 = 3 ∧ 22 ≤ (Easter.Julian y).2 ∧ (Easter.Julian y).2 ≤ 31 ∨
       (Easter.Julian y).1 = 4 ∧ 1 ≤ (Easter.Julian y).2 ∧ (Easter.Julian y).2 ≤ 25) := by
  rw [fullMoonJ_eq]
  have hd0 : 0 ≤ (19 * (y % 19) + 15) % 30 := Int.emod_nonneg _ (by norm_num)
  have hd29 : (19 * (y % 19) + 15) % 30 < 29 := by
    have h0 : 0 ≤ y % 19 := Int.emod_nonneg _ (by norm_num)
    have h1 : y % 19 < 19 := Int.emod_lt_of_pos _ (by norm_num)
    generalize y % 19 = g at *
    interval_cases g <;> decide
  have hE : Easter.Julian y = let d := (19 * (y % 19) + 15) % 30
      let e := (2 * (y % 4) + 4 * (y % 7) - d + 34) % 7
      ((d + e + 114) / 31, (d + e + 114) % 31 + 1) := by
    unfold Easter.Julian
    simp only [rem_nonneg_eq hy, rem_nonneg_eq (show 0 ≤ 19 * (y % 19) + 15 by omega)]
    rw [rem_nonneg_eq (show 0 ≤ 2 * (y % 4) + 4 * (y % 7) - (19 * (y % 19) + 15) % 30 + 34 by omega)]
    have he0 : 0 ≤ (2 * (y % 4) + 4 * (y % 7) - (19 * (y % 19) + 15) % 30 + 34) % 7 := Int.emod_nonneg _ (by norm_num)
    have hn : 0 ≤ (19 * (y % 19) + 15) % 30 + (2 * (y % 4) + 4 * (y % 7) - (19 * (y % 19) + 15) % 30 + 34) % 7 + 114 := by
      linarith
    rw [quo_nonneg_eq hn, rem_nonneg_eq hn]
  rw [hE]
  generalize (19 * (y % 19) + 15) % 30 = d at *
  dsimp only
  obtain ⟨e, he⟩ : ∃ e, (2 * (y % 4) + 4 * (y % 7) - d + 34) % 7 = e := ⟨_, rfl⟩
  have he0 : 0 ≤ e := he ▸ Int.emod_nonneg _ (by norm_num)
  have he6 : e < 7 := he ▸ Int.emod_lt_of_pos _ (by norm_num)
  rw [he]
  refine ⟨d + e + 22, ?_, by clear he hE; omega, by clear he hE; omega, by clear he hE; omega,
    by clear he hE; omega, ?_, by clear he hE; omega⟩
  · clear he hE; unfold marchDay; dsimp only; omega
  · unfold SundayJ; rw [dayCountJ_march]
    obtain ⟨q, hq⟩ : (7 : Int) ∣ 2 * (y % 4) + 4 * (y % 7) - d + 34 - e := by
      rw [← he]; exact Int.dvd_self_sub_emod
    clear he hE
    omega

/-- Closure of periods of a function on the naturals under gcd. -/
theorem period_gcd {α : Type} (f : Nat → α) (P Q : Nat) (hP : ∀ n, f (n + P) = f n)
    (hQ : ∀ n, f (n + Q) = f n) : ∀ n, f (n + Nat.gcd P Q) = f n := by
  have mulP : ∀ k n, f (n + k * P) = f n := by
    intro k; induction k with
    | zero => simp
    | succ k ih => intro n; rw [Nat.succ_mul, ← Nat.add_assoc, hP, ih]
  have mulQ : ∀ k n, f (n + k * Q) = f n := by
    intro k; induction k with
    | zero => simp
    | succ k ih => intro n; rw [Nat.succ_mul, ← Nat.add_assoc, hQ, ih]
  intro n
  by_cases hlt : Nat.gcd P Q < Q
  · obtain ⟨m, -, hm⟩ := Nat.exists_mul_mod_eq_gcd hlt
    have h1 := Nat.div_add_mod (P * m) Q
    rw [hm] at h1
    rw [← mulQ (P * m / Q) (n + Nat.gcd P Q)]
    have : n + Nat.gcd P Q + P * m / Q * Q = n + m * P := by
      rw [Nat.mul_comm (P * m / Q), Nat.mul_comm m P]; omega
    rw [this, mulP]
  · rcases Nat.eq_zero_or_pos Q with h0 | h0
    · subst h0; simp [hP]
    · have : Nat.gcd P Q = Q := le_antisymm (Nat.gcd_le_right _ h0) (not_lt.1 hlt)
      rw [this, hQ]

end Verif.Lemmas
