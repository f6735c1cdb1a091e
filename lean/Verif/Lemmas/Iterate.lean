import Verif.Model.Iterate
import Mathlib.Topology.Order.IntermediateValue
import Mathlib.Topology.Instances.Real.Lemmas
import Mathlib.Tactic.Linarith
import Mathlib.Tactic.FieldSimp
import Mathlib.Tactic.Positivity
import Mathlib.Logic.Function.Iterate

namespace Verif.Lemmas

open Verif.Go Verif.Model.Iterate

theorem decimalLoop_some (better : ℝ → ℝ) (d : ℝ) (fuel : ℕ) (start r : ℝ) (c : ℕ)
    (h : decimalLoop better d fuel start = (some r, c)) :
    ∃ k, k < fuel ∧ c = k + 1 ∧ r = better^[k + 1] start ∧ |better^[k + 1] start - better^[k] start| < d ∧
      ∀ j < k, ¬ |better^[j + 1] start - better^[j] start| < d := by
  induction fuel generalizing start c with
  | zero => simp [decimalLoop] at h
  | succ n ih =>
    unfold decimalLoop at h
    dsimp only at h
    split_ifs at h with hd
    · simp only [Prod.mk.injEq, Option.some.injEq] at h
      exact ⟨0, by omega, h.2.symm, h.1.symm, hd, by intro j hj; omega⟩
    · obtain ⟨h1, h2⟩ := Prod.mk.inj h
      obtain ⟨k, a1, a2, a3, a4, a5⟩ := ih (better start) (decimalLoop better d n (better start)).2
        (by rw [← h1])
      refine ⟨k + 1, by omega, by omega, a3, a4, ?_⟩
      intro j hj
      cases j with
      | zero => exact hd
      | succ j => exact a5 j (by omega)

theorem decimalLoop_none (better : ℝ → ℝ) (d : ℝ) (fuel : ℕ) (start : ℝ) :
    (decimalLoop better d fuel start).1 = none ↔ ∀ j < fuel, ¬ |better^[j + 1] start - better^[j] start| < d := by
  induction fuel generalizing start with
  | zero => simp [decimalLoop]
  | succ n ih =>
    unfold decimalLoop
    dsimp only
    split_ifs with hd
    · simp only [reduceCtorEq, false_iff]
      intro hc
      exact hc 0 (by omega) hd
    · rw [ih]
      constructor
      · intro h j hj
        cases j with
        | zero => exact hd
        | succ j => exact h j (by omega)
      · intro h j hj
        exact h (j + 1) (by omega)

theorem decimalLoop_calls (better : ℝ → ℝ) (d : ℝ) (fuel : ℕ) (start : ℝ) :
    (decimalLoop better d fuel start).2 ≤ fuel ∧
      ((decimalLoop better d fuel start).1 = none → (decimalLoop better d fuel start).2 = fuel) := by
  induction fuel generalizing start with
  | zero => simp [decimalLoop]
  | succ n ih =>
    unfold decimalLoop
    dsimp only
    split_ifs with hd
    · simp
    · obtain ⟨h1, h2⟩ := ih (better start)
      exact ⟨by simp only; omega, fun h => by simp only at h ⊢; rw [h2 h]⟩

/-- The bracket property BinaryRoot maintains. -/
def Bracket (f : ℝ → ℝ) (lo up : ℝ) : Prop := (0 ≤ f lo ∧ f up < 0) ∨ (f lo < 0 ∧ 0 ≤ f up) ∨ (0 < f lo ∧ f up ≤ 0)

theorem bracket_root (f : ℝ → ℝ) (hf : Continuous f) (lo up : ℝ) (h : Bracket f lo up) :
    ∃ r ∈ Set.uIcc lo up, f r = 0 := by
  have h1 := intermediate_value_uIcc (a := lo) (b := up) (f := f) hf.continuousOn
  have h2 : (0 : ℝ) ∈ Set.uIcc (f lo) (f up) := by
    rw [Set.mem_uIcc]
    rcases h with h | h | h
    · right; constructor <;> linarith
    · left; constructor <;> linarith
    · right; constructor <;> linarith
  obtain ⟨r, hr, he⟩ := h1 h2
  exact ⟨r, hr, he⟩

theorem binaryLoop_spec (f : ℝ → ℝ) (hf : Continuous f) (fuel : ℕ) (mid lo up : ℝ)
    (hb : Bracket f lo up) (hm : mid = lo ∨ mid = up ∨ 0 < fuel) :
    ∃ r, f r = 0 ∧ r ∈ Set.uIcc lo up ∧ |binaryLoop f fuel mid lo up (f lo) - r| ≤ |up - lo| / 2 ^ fuel := by
  induction fuel generalizing mid lo up with
  | zero =>
    obtain ⟨r, hr, he⟩ := bracket_root f hf lo up hb
    refine ⟨r, he, hr, ?_⟩
    simp only [binaryLoop, pow_zero, div_one]
    rcases hm with rfl | rfl | h
    · rw [abs_sub_comm]
      rw [Set.mem_uIcc] at hr
      rcases hr with hr | hr
      · rw [abs_of_nonneg (by linarith), abs_of_nonneg (by linarith)]; linarith
      · rw [abs_of_nonpos (by linarith), abs_of_nonpos (by linarith)]; linarith
    · rw [Set.mem_uIcc] at hr
      rcases hr with hr | hr
      · rw [abs_of_nonneg (by linarith), abs_of_nonneg (by linarith)]; linarith
      · rw [abs_of_nonpos (by linarith), abs_of_nonpos (by linarith)]; linarith
    · omega
  | succ n ih =>
    unfold binaryLoop
    dsimp only
    have hsub : ∀ r, (r ∈ Set.uIcc lo ((lo + up) / 2) ∨ r ∈ Set.uIcc ((lo + up) / 2) up) → r ∈ Set.uIcc lo up := by
      intro r
      simp only [Set.mem_uIcc]
      rintro ((h | h) | (h | h))
      · left; constructor <;> linarith
      · right; constructor <;> linarith
      · left; constructor <;> linarith
      · right; constructor <;> linarith
    have hw1 : |(lo + up) / 2 - lo| / 2 ^ n = |up - lo| / 2 ^ (n + 1) := by
      rw [show (lo + up) / 2 - lo = (up - lo) / 2 by ring, abs_div, abs_two, pow_succ]; field_simp
    have hw2 : |up - (lo + up) / 2| / 2 ^ n = |up - lo| / 2 ^ (n + 1) := by
      rw [show up - (lo + up) / 2 = (up - lo) / 2 by ring, abs_div, abs_two, pow_succ]; field_simp
    split_ifs with h0 hs
    · refine ⟨(lo + up) / 2, h0, hsub _ (Or.inl Set.right_mem_uIcc), ?_⟩
      simp only [sub_self, abs_zero]
      positivity
    · have hb' : Bracket f ((lo + up) / 2) up := by
        simp only [signbit, decide_eq_decide] at hs
        rcases lt_or_gt_of_ne h0 with hn | hp
        · have := hs.2 hn
          rcases hb with h | h | h
          · linarith
          · right; left; exact ⟨hn, h.2⟩
          · linarith
        · have : ¬ f lo < 0 := fun hc => by have := hs.1 hc; linarith
          rcases hb with h | h | h
          · left; exact ⟨le_of_lt hp, h.2⟩
          · exact absurd h.1 this
          · right; right; exact ⟨hp, h.2⟩
      obtain ⟨r, h1, h2, h3⟩ := ih ((lo + up) / 2) ((lo + up) / 2) up hb' (Or.inl rfl)
      exact ⟨r, h1, hsub r (Or.inr h2), by rw [← hw2]; exact h3⟩
    · have hb' : Bracket f lo ((lo + up) / 2) := by
        simp only [signbit, decide_eq_decide] at hs
        rcases lt_or_gt_of_ne h0 with hn | hp
        · have : ¬ f lo < 0 := fun hc => hs ⟨fun _ => hn, fun _ => hc⟩
          left; exact ⟨not_lt.1 this, hn⟩
        · have hp' : ¬ f ((lo + up) / 2) < 0 := not_lt.2 (le_of_lt hp)
          have : f lo < 0 := by
            by_contra hc
            exact hs ⟨fun h => absurd h hc, fun h => absurd h hp'⟩
          right; left; exact ⟨this, le_of_lt hp⟩
      obtain ⟨r, h1, h2, h3⟩ := ih ((lo + up) / 2) lo ((lo + up) / 2) hb' (Or.inr (Or.inl rfl))
      exact ⟨r, h1, hsub r (Or.inl h2), by rw [← hw1]; exact h3⟩

/-- All values on one side: the search runs to the upper bound. -/
theorem binaryLoop_runaway (f : ℝ → ℝ) (fuel : ℕ) (mid lo up : ℝ) (hlu : lo < up)
    (hpos : ∀ x, lo < x → x < up → 0 < f x) (yl : ℝ) (hy : 0 ≤ yl) (hm : 0 < fuel) :
    binaryLoop f fuel mid lo up yl = up - (up - lo) / 2 ^ fuel := by
  induction fuel generalizing mid lo yl with
  | zero => omega
  | succ n ih =>
    unfold binaryLoop
    dsimp only
    have hp := hpos ((lo + up) / 2) (by linarith) (by linarith)
    rw [if_neg hp.ne', if_pos (by simp [signbit, hp.le, hy, not_lt.2 hp.le, not_lt.2 hy])]
    rcases Nat.eq_zero_or_pos n with rfl | hn
    · simp only [binaryLoop, zero_add, pow_one]; ring
    · rw [ih ((lo + up) / 2) ((lo + up) / 2) (by linarith) (fun x h1 h2 => hpos x (by linarith) h2) _ hp.le hn]
      rw [pow_succ]; field_simp; ring

end Verif.Lemmas
