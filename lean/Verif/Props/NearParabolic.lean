import Verif.Lemmas.NearParabolic
import Verif.Props.Orbits

/-! Property C81: near-parabolic motion always comes to an end. -/

namespace Verif.Props

open Verif.Go Real Verif.Model.Orbits Verif.Lemmas

/-- C81.  For all elements and times there is a number of steps after which the run has ended, and its result no longer
depends on the number of steps allowed: the unbounded Newton loop always ends. -/
theorem C81_nearparabolic_terminates (timeP pDis ecc jde : ℝ) :
    ∃ n0 res, res ≠ Outcome.running ∧ ∀ n, n0 ≤ n → nearparabolicAD n timeP pDis ecc jde = res := by
  by_cases ht : jde - timeP = 0
  · exact ⟨0, .ok 0 pDis, by simp, fun n _ => by unfold nearparabolicAD; dsimp only; rw [if_pos ht]⟩
  · by_cases he : ecc = 1
    · refine ⟨0, _, ?_, fun n _ => by unfold nearparabolicAD; dsimp only; rw [if_neg ht, if_neg (not_not.2 he)]⟩
      simp [finish]
    · obtain ⟨n0, res, hres, h⟩ := outer_terminates (K * sqrt ((1 + ecc) / pDis) / (2 * pDis) * (jde - timeP))
        ((1 - ecc) / (1 + ecc)) 51 0 (startS (K * sqrt ((1 + ecc) / pDis) / (2 * pDis) * (jde - timeP)) (jde - timeP))
      refine ⟨n0, match res with
        | .done s => finish pDis ecc s
        | .noConvergence => .noConvergence
        | .running => .running, ?_, fun n hn => ?_⟩
      · cases res with
        | done s => simp [finish]
        | noConvergence => simp
        | running => exact absurd rfl hres
      · unfold nearparabolicAD; dsimp only; rw [if_neg ht, if_pos he, h n hn]; cases res <;> rfl

end Verif.Props
