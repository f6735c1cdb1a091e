import Verif.Model.Jm
import Verif.Spec.Hebrew
import Verif.Lemmas.JulianReal
import Mathlib.Tactic.Linarith
import Mathlib.Tactic.FieldSimp
import Mathlib.Tactic.IntervalCases

namespace Verif.Lemmas

open Verif.Go Verif.Spec Verif.Model Verif.Model.Julian Verif.Model.Jm

theorem monthsBefore_eq (n : Nat) : Hebrew.monthsBefore n = (235 * (n : Int) + 1) / 19 := by
  induction n with
  | zero => simp [Hebrew.monthsBefore]
  | succ n ih =>
    rw [Hebrew.monthsBefore, ih]
    obtain ⟨k, r, hr0, hr, hn⟩ : ∃ k r : Int, 0 ≤ r ∧ r < 19 ∧ (n : Int) = 19 * k + r :=
      ⟨(n : Int) / 19, (n : Int) % 19, by omega, by omega, by omega⟩
    push_cast
    rw [hn]
    by_cases hl : Hebrew.Leap (19 * k + r + 1) <;> simp only [hl, if_true, if_false] <;>
      unfold Hebrew.Leap at hl <;> interval_cases r <;> omega

theorem molad_eq (A : Int) (hA : 1 ≤ A) :
    Hebrew.molad A = 31524 + 765433 * ((235 * A - 234) / 19) := by
  unfold Hebrew.molad
  rw [monthsBefore_eq]
  have : (((A - 1).toNat : Nat) : Int) = A - 1 := by omega
  rw [this]
  congr 3; ring

set_option maxHeartbeats 4000000 in
/-- Length of the year: the classical six values. -/
theorem newYear_len (A : Int) (hA : 1 ≤ A) :
    Hebrew.newYear (A + 1) - Hebrew.newYear A ∈
      (if Hebrew.Leap A then [383, 384, 385] else [353, 354, 355] : List Int) := by
  have hm : Hebrew.molad (A + 1) = Hebrew.molad A + 765433 * (if Hebrew.Leap A then 13 else 12) := by
    unfold Hebrew.molad
    have h1 : (A + 1 - 1).toNat = (A - 1).toNat + 1 := by omega
    have h2 : (((A - 1).toNat : Nat) : Int) + 1 = A := by omega
    rw [h1, Hebrew.monthsBefore, h2]; ring
  unfold Hebrew.newYear
  have hA1 : A + 1 - 1 = A := by ring
  rw [hm, hA1]
  have hnn : Hebrew.Leap A → ¬ Hebrew.Leap (A + 1) ∧ ¬ Hebrew.Leap (A - 1) := by
    unfold Hebrew.Leap; omega
  generalize Hebrew.molad A = M
  by_cases hl : Hebrew.Leap A
  · obtain ⟨h1, h2⟩ := hnn hl
    simp only [hl, h1, if_true, List.mem_cons, List.not_mem_nil, or_false,
      not_true, and_false, not_false_iff, and_true, false_or, h2]
    obtain ⟨w, p, hp0, hp, hw⟩ : ∃ w p : Int, 0 ≤ p ∧ p < 25920 ∧ M = 25920 * w + p :=
      ⟨M / 25920, M % 25920, by omega, by omega, by omega⟩
    have e1 : M / 25920 = w := by omega
    have e2 : M % 25920 = p := by omega
    rw [e1, e2]
    have e3 : (M + 765433 * 13) / 25920 = w + 383 + (if p ≥ 2651 then 1 else 0) := by
      split_ifs <;> omega
    have e4 : (M + 765433 * 13) % 25920 = p + 23269 - (if p ≥ 2651 then 25920 else 0) := by
      split_ifs <;> omega
    rw [e3, e4]
    obtain ⟨u, v, hv0, hv, hw⟩ : ∃ u v : Int, 0 ≤ v ∧ v < 7 ∧ w = 7 * u + v :=
      ⟨w / 7, w % 7, by omega, by omega, by omega⟩
    subst hw
    clear e1 e2 e3 e4 hm
    interval_cases v <;> split_ifs <;> omega
  · by_cases h1 : Hebrew.Leap (A + 1) <;> by_cases h2 : Hebrew.Leap (A - 1) <;>
    simp only [hl, h1, h2, if_true, if_false, not_true, List.mem_cons, List.not_mem_nil, or_false, not_false_iff, and_true, and_false]
    all_goals
      obtain ⟨w, p, hp0, hp, hw⟩ : ∃ w p : Int, 0 ≤ p ∧ p < 25920 ∧ M = 25920 * w + p :=
        ⟨M / 25920, M % 25920, by omega, by omega, by omega⟩
      have e1 : M / 25920 = w := by omega
      have e2 : M % 25920 = p := by omega
      rw [e1, e2]
      have e3 : (M + 765433 * 12) / 25920 = w + 354 + (if p ≥ 16404 then 1 else 0) := by
        split_ifs <;> omega
      have e4 : (M + 765433 * 12) % 25920 = p + 9516 - (if p ≥ 16404 then 25920 else 0) := by
        split_ifs <;> omega
      rw [e3, e4]
      obtain ⟨u, v, hv0, hv, hw⟩ : ∃ u v : Int, 0 ≤ v ∧ v < 7 ∧ w = 7 * u + v :=
        ⟨w / 7, w % 7, by omega, by omega, by omega⟩
      subst hw
      clear e1 e2 e3 e4 hm
      interval_cases v <;> split_ifs <;> omega

end Verif.Lemmas
