import Verif.Props.Kepler64
/-
C186, continued: the steps of Newton's method, limited or not, go towards the solution.
-/
namespace Verif.Props

open Real Verif.Go Verif.Model Verif.Go.F64 Verif.Model.Kepler64 Verif.Props.Kepler64

theorem newton_sign {l : Trig} (hl : l.Ok) (hu : Unit1 l) {e M s q : ℝ} (h0 : 0 ≤ e) (hr : Rep e) (h1 : e < 1) (hs : |s| ≤ 2 ^ 29) (h : newton l e M s q) :
    (s + (|M| + 12) * 1.2e-16 ≤ M + e * Real.sin s → 0 ≤ q) ∧ (M + e * Real.sin s ≤ s - (|M| + 12) * 1.2e-16 → q ≤ 0) := by
  obtain ⟨a, b, ha, hb, rfl⟩ := h
  have hbp := denom_pos hu h0 hr h1 hb
  have c := abs_le.mp (step1_close hl h0 h1.le hs ha)
  have z : Rep 0 := by simpa using rep_int (n := 0) (by norm_num)
  constructor
  · intro g
    exact le_fl z (div_nonneg (le_fl z (by linarith [c.1])) hbp.le)
  · intro g
    exact fl_le z (div_nonpos_of_nonpos_of_nonneg (fl_le z (by linarith [c.2])) hbp.le)

/-- C186: as long as Kepler's equation is not satisfied to (|M| + 12)·1.2·10⁻¹⁶, an iteration of Kepler2 or Kepler2b never moves away from the side on which the solution
lies, and one of Kepler2b never by more than half a radian. -/
theorem C186_direction (l : Trig) (hl : l.Ok) (hu : Unit1 l) (e M s x : ℝ) (h0 : 0 ≤ e) (hr : Rep e) (h1 : e < 1) (hs : |s| ≤ 2 ^ 29) (hsr : Rep s)
    (h : step2 l e M s x ∨ step2b l e M s x) :
    (s + (|M| + 12) * 1.2e-16 ≤ M + e * Real.sin s → s ≤ x) ∧ (M + e * Real.sin s ≤ s - (|M| + 12) * 1.2e-16 → x ≤ s) ∧
      (step2b l e M s x → fl (s - 0.5) ≤ x ∧ x ≤ fl (s + 0.5)) := by
  have cl : ∀ q, (0 ≤ q → 0 ≤ clamp q) ∧ (q ≤ 0 → clamp q ≤ 0) := by
    intro q
    unfold clamp
    constructor <;> intro hq <;> split_ifs <;> norm_num at * <;> linarith
  have mono : ∀ d, (0 ≤ d → s ≤ fl (s + d)) ∧ (d ≤ 0 → fl (s + d) ≤ s) := fun d =>
    ⟨fun hd => le_fl hsr (by linarith), fun hd => fl_le hsr (by linarith)⟩
  refine ⟨fun g => ?_, fun g => ?_, ?_⟩
  · rcases h with ⟨q, hq, rfl⟩ | ⟨q, hq, rfl⟩
    · exact (mono q).1 ((newton_sign hl hu h0 hr h1 hs hq).1 g)
    · exact (mono _).1 ((cl q).1 ((newton_sign hl hu h0 hr h1 hs hq).1 g))
  · rcases h with ⟨q, hq, rfl⟩ | ⟨q, hq, rfl⟩
    · exact (mono q).2 ((newton_sign hl hu h0 hr h1 hs hq).2 g)
    · exact (mono _).2 ((cl q).2 ((newton_sign hl hu h0 hr h1 hs hq).2 g))
  · rintro ⟨q, hq, rfl⟩
    have := abs_le.mp (clamp_abs q).1
    exact ⟨fl_mono (by linarith), fl_mono (by linarith)⟩

/-- C186, a limited step: e = 1/2, M = 3, from E₀ = 0 with the functions rounded correctly, forwards by exactly half a radian. -/
theorem C186_direction_example : ∃ l : Trig, l.Ok ∧ Unit1 l ∧ step2b l (1 / 2) 3 0 (1 / 2) := by
  have one : Rep 1 := by simpa using rep_int (n := 1) (by norm_num)
  have mone : Rep (-1) := by simpa using rep_int (n := -1) (by norm_num)
  refine ⟨⟨fun x => fl (Real.sin x), fun x => fl (Real.cos x)⟩, trig_ok, ⟨fun x => abs_le.mpr ⟨le_fl mone (Real.neg_one_le_sin x), fl_le one (Real.sin_le_one x)⟩,
    fun x => abs_le.mpr ⟨le_fl mone (Real.neg_one_le_cos x), fl_le one (Real.cos_le_one x)⟩⟩, 6, ⟨3, 1 / 2, ?_, ?_, ?_⟩, ?_⟩
  · left
    have r3 : Rep 3 := by simpa using rep_int (n := 3) (by norm_num)
    simp [fl_zero, fl_rep r3]
  · left
    have rh : Rep (1 / 2) := ⟨1, -1, by norm_num, by norm_num, by norm_num⟩
    show (1 : ℝ) / 2 = fl (1 - fl (1 / 2 * fl (Real.cos 0)))
    rw [show (Real.cos 0) = 1 from Real.cos_zero, fl_rep one, mul_one, fl_rep rh, show (1 : ℝ) - 1 / 2 = 1 / 2 by norm_num, fl_rep rh]
  · have r3 : Rep 3 := by simpa using rep_int (n := 3) (by norm_num)
    have r6 : Rep 6 := by simpa using rep_int (n := 6) (by norm_num)
    rw [sub_zero, fl_rep r3, show (3 : ℝ) / (1 / 2) = 6 by norm_num, fl_rep r6]
  · have rh : Rep (1 / 2) := ⟨1, -1, by norm_num, by norm_num, by norm_num⟩
    unfold clamp
    rw [if_pos (by norm_num), show (0 : ℝ) + 0.5 = 1 / 2 by norm_num, fl_rep rh]

end Verif.Props
