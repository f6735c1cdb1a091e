import Verif.Lemmas.Series

/-! Properties C67, C90, C91, C92, C93: phases, apsides and node passages of the Moon. -/

namespace Verif.Props

open Verif.Model Verif.Lemmas

/-! ### Bounds on the corrections -/

theorem nfc_abs (m : Moonphase.Mp) (h0 : 0 ≤ m.E) (h1 : m.E ≤ 1.1) :
    |Moonphase.nfc m Moonphase.nc| ≤ 0.66 ∧ |Moonphase.nfc m Moonphase.fc| ≤ 0.66 := by
  have e : |m.E| = m.E := abs_of_nonneg h0
  have h2 : m.E * m.E ≤ 1.21 := by nlinarith
  constructor
  · refine (series_sin_abs _).trans ?_
    simp only [Moonphase.nc, List.getD_cons_zero, List.getD_cons_succ, List.map_cons, List.map_nil, List.sum_cons, List.sum_nil, abs_mul, e, abs_neg]
    norm_num [abs_of_pos]
    nlinarith
  · refine (series_sin_abs _).trans ?_
    simp only [Moonphase.fc, List.getD_cons_zero, List.getD_cons_succ, List.map_cons, List.map_nil, List.sum_cons, List.sum_nil, abs_mul, e, abs_neg]
    norm_num [abs_of_pos]
    nlinarith

theorem flc_abs (m : Moonphase.Mp) (h0 : 0 ≤ m.E) (h1 : m.E ≤ 1.1) : |Moonphase.flc m| ≤ 0.86 := by
  have e : |m.E| = m.E := abs_of_nonneg h0
  have h2 : m.E * m.E ≤ 1.21 := by nlinarith
  refine (series_sin_abs _).trans ?_
  simp only [List.map_cons, List.map_nil, List.sum_cons, List.sum_nil, abs_mul, e, abs_neg]
  norm_num [abs_of_pos]
  nlinarith

theorem w_abs (m : Moonphase.Mp) (h0 : 0 ≤ m.E) (h1 : m.E ≤ 1.1) : 0 < Moonphase.w m ∧ Moonphase.w m ≤ 0.004 := by
  have c := fun x : ℝ => abs_le.1 (Real.abs_cos_le_one x)
  have c1 := c m.M
  have c2 := c m.M'
  have c3 := c (m.M' - m.M)
  have c4 := c (m.M' + m.M)
  have c5 := c (2 * m.F)
  have a1 : m.E * Real.cos m.M ≤ 1.1 := by nlinarith
  have a2 : -1.1 ≤ m.E * Real.cos m.M := by nlinarith
  unfold Moonphase.w
  constructor <;> norm_num at * <;> linarith

theorem a_abs (k : ℝ) : |Moonphase.a (Moonphase.newMpK k)| ≤ 0.0013 := by
  refine (series_sin_abs _).trans ?_
  simp only [Moonphase.newMpK, Moonphase.ac, List.zip_cons_cons, List.zip_nil_right, List.map_cons, List.map_nil, List.sum_cons, List.sum_nil]
  norm_num [abs_of_pos]

theorem mean_growth (u v : ℝ) (hu : |u| ≤ 40) (hv : |v| ≤ 40) (huv : u ≤ v) :
    (v - u) * 36524 ≤ Moonphase.mean v - Moonphase.mean u := by
  have h := quartic_growth 2451550.09766 (29.530588861 / Moonphase.ck) 0.00015437 (-0.00000015) 0.00000000073 u v 40 (by norm_num) hu hv huv
  refine le_trans (mul_le_mul_of_nonneg_left ?_ (by linarith)) h
  rw [abs_neg, abs_of_pos (by norm_num), abs_of_pos (by norm_num), abs_of_pos (by norm_num)]
  unfold Moonphase.ck
  norm_num

theorem T_bound {k : ℝ} (hk : |k| ≤ 49400) : |k * Moonphase.ck| ≤ 40 := by
  unfold Moonphase.ck
  rw [abs_mul, abs_of_pos (a := (1 : ℝ) / 1236.85) (by norm_num)]
  norm_num at *
  linarith

theorem E_k {k : ℝ} (hk : |k| ≤ 49400) : 0 ≤ (Moonphase.newMpK k).E ∧ (Moonphase.newMpK k).E ≤ 1.1 := by
  obtain ⟨h1, h2⟩ := E_bound _ (T_bound hk)
  exact ⟨le_trans (by norm_num) h1, h2⟩

/-- The mean phase with number k (any quarter). -/
noncomputable def meanPhase (k : ℝ) : ℝ := Moonphase.mean (k * Moonphase.ck)

theorem meanPhase_growth (k l : ℝ) (hk : |k| ≤ 49400) (hl : |l| ≤ 49400) (h : k ≤ l) : (l - k) * 29.52 ≤ meanPhase l - meanPhase k := by
  have hck : (0 : ℝ) < Moonphase.ck := by unfold Moonphase.ck; norm_num
  have := mean_growth _ _ (T_bound hk) (T_bound hl) (mul_le_mul_of_nonneg_right h hck.le)
  refine le_trans ?_ this
  unfold Moonphase.ck
  have : 0 ≤ l - k := by linarith
  norm_num
  nlinarith

theorem newK_near {k : ℝ} (hk : |k| ≤ 49400) : |Moonphase.newK k - meanPhase k| ≤ 0.6613 := by
  obtain ⟨h0, h1⟩ := E_k hk
  have a1 := abs_le.1 (nfc_abs _ h0 h1).1
  have a2 := abs_le.1 (a_abs k)
  have : Moonphase.newK k - meanPhase k = Moonphase.nfc (Moonphase.newMpK k) Moonphase.nc + Moonphase.a (Moonphase.newMpK k) := by
    unfold Moonphase.newK meanPhase; dsimp only [Moonphase.newMpK]; ring
  rw [this, abs_le]; constructor <;> norm_num at * <;> linarith [a1.1, a1.2, a2.1, a2.2]

theorem fullK_near {k : ℝ} (hk : |k| ≤ 49400) : |Moonphase.fullK k - meanPhase k| ≤ 0.6613 := by
  obtain ⟨h0, h1⟩ := E_k hk
  have a1 := abs_le.1 (nfc_abs _ h0 h1).2
  have a2 := abs_le.1 (a_abs k)
  have : Moonphase.fullK k - meanPhase k = Moonphase.nfc (Moonphase.newMpK k) Moonphase.fc + Moonphase.a (Moonphase.newMpK k) := by
    unfold Moonphase.fullK meanPhase; dsimp only [Moonphase.newMpK]; ring
  rw [this, abs_le]; constructor <;> norm_num at * <;> linarith [a1.1, a1.2, a2.1, a2.2]

theorem firstK_near {k : ℝ} (hk : |k| ≤ 49400) : |Moonphase.firstK k - meanPhase k| ≤ 0.8653 := by
  obtain ⟨h0, h1⟩ := E_k hk
  have a1 := abs_le.1 (flc_abs _ h0 h1)
  have a2 := abs_le.1 (a_abs k)
  have a3 := w_abs _ h0 h1
  have : Moonphase.firstK k - meanPhase k =
      Moonphase.flc (Moonphase.newMpK k) + Moonphase.w (Moonphase.newMpK k) + Moonphase.a (Moonphase.newMpK k) := by
    unfold Moonphase.firstK meanPhase; dsimp only [Moonphase.newMpK]; ring
  rw [this, abs_le]; constructor <;> norm_num at * <;> linarith [a1.1, a1.2, a2.1, a2.2, a3.1, a3.2]

theorem lastK_near {k : ℝ} (hk : |k| ≤ 49400) : |Moonphase.lastK k - meanPhase k| ≤ 0.8653 := by
  obtain ⟨h0, h1⟩ := E_k hk
  have a1 := abs_le.1 (flc_abs _ h0 h1)
  have a2 := abs_le.1 (a_abs k)
  have a3 := w_abs _ h0 h1
  have : Moonphase.lastK k - meanPhase k =
      Moonphase.flc (Moonphase.newMpK k) - Moonphase.w (Moonphase.newMpK k) + Moonphase.a (Moonphase.newMpK k) := by
    unfold Moonphase.lastK meanPhase; dsimp only [Moonphase.newMpK]; ring
  rw [this, abs_le]; constructor <;> norm_num at * <;> linarith [a1.1, a1.2, a2.1, a2.2, a3.1, a3.2]

/-! ### C67 -/

/-- The decimal year at which the linear estimate of the lunation number (49.2) is k. -/
noncomputable def lunationYear (k : ℝ) : ℝ := 2000 + k / 12.3685

theorem snap_lunationYear (n : ℤ) (q : ℝ) : Moonphase.snap (lunationYear (n + q)) q = n + q :=
  snap_at n q _ (by unfold lunationYear; norm_num)

theorem snap_nearest (y q : ℝ) : ∃ n : ℤ, Moonphase.snap y q = n + q ∧ |(n + q) - (y - 2000) * 12.3685| ≤ 1 / 2 := by
  obtain ⟨⟨n, hn⟩, h⟩ := snap_spec ((y - 2000) * 12.3685) q
  exact ⟨n, hn, by rw [← hn]; exact h⟩

/-- C67, phases.  For every year there is a lunation number n + q nearest to the linear estimate (y − 2000) 12.3685 among all of the quarter q asked for, and each of the
eight functions returns its value at the year of that lunation number. -/
theorem C67_phase_nearest (y : ℝ) :
    (∃ n : ℤ, (∀ m : ℤ, |n - (y - 2000) * 12.3685| ≤ |m - (y - 2000) * 12.3685|) ∧
      Moonphase.MeanNew y = Moonphase.MeanNew (lunationYear n) ∧ Moonphase.New y = Moonphase.New (lunationYear n)) ∧
    (∃ n : ℤ, (∀ m : ℤ, |n + 1 / 4 - (y - 2000) * 12.3685| ≤ |m + 1 / 4 - (y - 2000) * 12.3685|) ∧
      Moonphase.MeanFirst y = Moonphase.MeanFirst (lunationYear (n + 1 / 4)) ∧ Moonphase.First y = Moonphase.First (lunationYear (n + 1 / 4))) ∧
    (∃ n : ℤ, (∀ m : ℤ, |n + 1 / 2 - (y - 2000) * 12.3685| ≤ |m + 1 / 2 - (y - 2000) * 12.3685|) ∧
      Moonphase.MeanFull y = Moonphase.MeanFull (lunationYear (n + 1 / 2)) ∧ Moonphase.Full y = Moonphase.Full (lunationYear (n + 1 / 2))) ∧
    (∃ n : ℤ, (∀ m : ℤ, |n + 3 / 4 - (y - 2000) * 12.3685| ≤ |m + 3 / 4 - (y - 2000) * 12.3685|) ∧
      Moonphase.MeanLast y = Moonphase.MeanLast (lunationYear (n + 3 / 4)) ∧ Moonphase.Last y = Moonphase.Last (lunationYear (n + 3 / 4))) := by
  have near : ∀ (n : ℤ) (q x : ℝ), |(n + q) - x| ≤ 1 / 2 → ∀ m : ℤ, |n + q - x| ≤ |m + q - x| := by
    intro n q x h m
    by_cases e : m = n
    · rw [e]
    · have h1 : (1 : ℝ) ≤ |(m : ℝ) - n| := by
        rw [← Int.cast_sub, ← Int.cast_abs]; exact_mod_cast Int.one_le_abs (sub_ne_zero.2 e)
      have h2 : |(m : ℝ) - n| ≤ |m + q - x| + |n + q - x| := by
        have := abs_sub (m + q - x) (n + q - x)
        rwa [show (m : ℝ) + q - x - (n + q - x) = m - n by ring] at this
      linarith
  refine ⟨?_, ?_, ?_, ?_⟩
  · obtain ⟨n, h1, h2⟩ := snap_nearest y 0
    have := snap_lunationYear n 0
    refine ⟨n, fun m => by simpa using near n 0 _ h2 m, ?_, ?_⟩ <;>
      simp only [Moonphase.MeanNew, Moonphase.New] <;> rw [h1] <;> rw [add_zero] at * <;> rw [this]
  · obtain ⟨n, h1, h2⟩ := snap_nearest y 0.25
    have := snap_lunationYear n 0.25
    have e : (0.25 : ℝ) = 1 / 4 := by norm_num
    refine ⟨n, fun m => by simpa [e] using near n 0.25 _ h2 m, ?_, ?_⟩ <;>
      simp only [Moonphase.MeanFirst, Moonphase.First] <;> rw [h1, ← e, this]
  · obtain ⟨n, h1, h2⟩ := snap_nearest y 0.5
    have := snap_lunationYear n 0.5
    have e : (0.5 : ℝ) = 1 / 2 := by norm_num
    refine ⟨n, fun m => by simpa [e] using near n 0.5 _ h2 m, ?_, ?_⟩ <;>
      simp only [Moonphase.MeanFull, Moonphase.Full] <;> rw [h1, ← e, this]
  · obtain ⟨n, h1, h2⟩ := snap_nearest y 0.75
    have := snap_lunationYear n 0.75
    have e : (0.75 : ℝ) = 3 / 4 := by norm_num
    refine ⟨n, fun m => by simpa [e] using near n 0.75 _ h2 m, ?_, ?_⟩ <;>
      simp only [Moonphase.MeanLast, Moonphase.Last] <;> rw [h1, ← e, this]

/-- C67, apsides and nodes: the number used is of the form integer (+ 1/2) and within 1/2 of the linear estimate. -/
theorem C67_apsis_node_nearest (y : ℝ) :
    (∃ n : ℤ, |(n : ℝ) - (y - 1999.97) * 13.2555| ≤ 1 / 2 ∧ Apsis.Perigee y = Apsis.perigeeK n ∧
      Apsis.MeanPerigee y = Apsis.mean (n * Apsis.ck) ∧ Apsis.PerigeeParallax y = Apsis.pp (Apsis.newLaK n)) ∧
    (∃ n : ℤ, |(n : ℝ) + 1 / 2 - (y - 1999.97) * 13.2555| ≤ 1 / 2 ∧ Apsis.Apogee y = Apsis.apogeeK (n + 1 / 2) ∧
      Apsis.MeanApogee y = Apsis.mean ((n + 1 / 2) * Apsis.ck) ∧ Apsis.ApogeeParallax y = Apsis.ap (Apsis.newLaK (n + 1 / 2))) ∧
    (∃ n : ℤ, |(n : ℝ) - (y - 2000.05) * 13.4223| ≤ 1 / 2 ∧ Moonnode.Ascending y = Moonnode.nodeK n) ∧
    (∃ n : ℤ, |(n : ℝ) + 1 / 2 - (y - 2000.05) * 13.4223| ≤ 1 / 2 ∧ Moonnode.Descending y = Moonnode.nodeK (n + 1 / 2)) := by
  have e : (0.5 : ℝ) = 1 / 2 := by norm_num
  refine ⟨?_, ?_, ?_, ?_⟩
  · obtain ⟨⟨n, hn⟩, h⟩ := snap_spec ((y - 1999.97) * 13.2555) 0
    rw [hn] at h
    refine ⟨n, by simpa using h, ?_, ?_, ?_⟩ <;>
      simp only [Apsis.Perigee, Apsis.MeanPerigee, Apsis.PerigeeParallax, Apsis.snap] <;> rw [hn, add_zero]
  · obtain ⟨⟨n, hn⟩, h⟩ := snap_spec ((y - 1999.97) * 13.2555) 0.5
    rw [hn] at h
    refine ⟨n, by rw [e] at h; exact h, ?_, ?_, ?_⟩ <;>
      simp only [Apsis.Apogee, Apsis.MeanApogee, Apsis.ApogeeParallax, Apsis.snap] <;> rw [hn, e]
  · obtain ⟨⟨n, hn⟩, h⟩ := snap_spec ((y - 2000.05) * 13.4223) 0
    rw [hn] at h
    exact ⟨n, by simpa using h, by simp only [Moonnode.Ascending, Moonnode.snap]; rw [hn, add_zero]⟩
  · obtain ⟨⟨n, hn⟩, h⟩ := snap_spec ((y - 2000.05) * 13.4223) 0.5
    rw [hn] at h
    exact ⟨n, by rw [e] at h; exact h, by simp only [Moonnode.Descending, Moonnode.snap]; rw [hn, e]⟩

/-! ### C90 -/

theorem New_lunation (n : ℤ) : Moonphase.New (lunationYear n) = Moonphase.newK n := by
  have := snap_lunationYear n 0
  rw [add_zero] at this
  unfold Moonphase.New; rw [this]

theorem First_lunation (n : ℤ) : Moonphase.First (lunationYear (n + 1 / 4)) = Moonphase.firstK (n + 1 / 4) := by
  have := snap_lunationYear n 0.25
  rw [show (0.25 : ℝ) = 1 / 4 by norm_num] at this
  unfold Moonphase.First; rw [show (0.25 : ℝ) = 1 / 4 by norm_num, this]

theorem Full_lunation (n : ℤ) : Moonphase.Full (lunationYear (n + 1 / 2)) = Moonphase.fullK (n + 1 / 2) := by
  have := snap_lunationYear n 0.5
  rw [show (0.5 : ℝ) = 1 / 2 by norm_num] at this
  unfold Moonphase.Full; rw [show (0.5 : ℝ) = 1 / 2 by norm_num, this]

theorem Last_lunation (n : ℤ) : Moonphase.Last (lunationYear (n + 3 / 4)) = Moonphase.lastK (n + 3 / 4) := by
  have := snap_lunationYear n 0.75
  rw [show (0.75 : ℝ) = 3 / 4 by norm_num] at this
  unfold Moonphase.Last; rw [show (0.75 : ℝ) = 3 / 4 by norm_num, this]

/-- C90.  New, First, Full, Last, New of one lunation follow each other with at least 5.8 days between them, for ±49000 lunations (±3900 years) around 2000. -/
theorem C90_phases_in_order (n : ℤ) (hn : |n| ≤ 49000) :
    Moonphase.New (lunationYear n) + 5.8 < Moonphase.First (lunationYear (n + 1 / 4)) ∧
    Moonphase.First (lunationYear (n + 1 / 4)) + 5.8 < Moonphase.Full (lunationYear (n + 1 / 2)) ∧
    Moonphase.Full (lunationYear (n + 1 / 2)) + 5.8 < Moonphase.Last (lunationYear (n + 3 / 4)) ∧
    Moonphase.Last (lunationYear (n + 3 / 4)) + 5.8 < Moonphase.New (lunationYear ((n + 1 : ℤ) : ℝ)) := by
  have hn' : |(n : ℝ)| ≤ 49000 := by exact_mod_cast hn
  rw [abs_le] at hn'
  rw [New_lunation, First_lunation, Full_lunation, Last_lunation, New_lunation]
  push_cast
  have b0 : |(n : ℝ)| ≤ 49400 := by rw [abs_le]; constructor <;> linarith
  have b1 : |(n : ℝ) + 1 / 4| ≤ 49400 := by rw [abs_le]; constructor <;> linarith
  have b2 : |(n : ℝ) + 1 / 2| ≤ 49400 := by rw [abs_le]; constructor <;> linarith
  have b3 : |(n : ℝ) + 3 / 4| ≤ 49400 := by rw [abs_le]; constructor <;> linarith
  have b4 : |(n : ℝ) + 1| ≤ 49400 := by rw [abs_le]; constructor <;> linarith
  have g1 := meanPhase_growth _ _ b0 b1 (by linarith)
  have g2 := meanPhase_growth _ _ b1 b2 (by linarith)
  have g3 := meanPhase_growth _ _ b2 b3 (by linarith)
  have g4 := meanPhase_growth _ _ b3 b4 (by linarith)
  have c0 := abs_le.1 (newK_near b0)
  have c1 := abs_le.1 (firstK_near b1)
  have c2 := abs_le.1 (fullK_near b2)
  have c3 := abs_le.1 (lastK_near b3)
  have c4 := abs_le.1 (newK_near b4)
  refine ⟨?_, ?_, ?_, ?_⟩ <;> norm_num at * <;> linarith [c0.1, c0.2, c1.1, c1.2, c2.1, c2.2, c3.1, c3.2, c4.1, c4.2]

/-- C90.  A later year never gives an earlier New Moon. -/
theorem C90_monotone (y y' : ℝ) (h : y ≤ y') (hy : -1900 ≤ y) (hy' : y' ≤ 5900) : Moonphase.New y ≤ Moonphase.New y' := by
  have hs : Moonphase.snap y 0 ≤ Moonphase.snap y' 0 := by
    unfold Moonphase.snap
    have : ⌊(y - 2000) * 12.3685 - 0 + 0.5⌋ ≤ ⌊(y' - 2000) * 12.3685 - 0 + 0.5⌋ := by apply Int.floor_le_floor; linarith
    have : (⌊(y - 2000) * 12.3685 - 0 + 0.5⌋ : ℝ) ≤ ⌊(y' - 2000) * 12.3685 - 0 + 0.5⌋ := by exact_mod_cast this
    linarith
  obtain ⟨n, e1, h1⟩ := snap_nearest y 0
  obtain ⟨m, e2, h2⟩ := snap_nearest y' 0
  unfold Moonphase.New
  rw [e1, e2] at hs ⊢
  simp only [add_zero] at *
  have hnm : n ≤ m := by exact_mod_cast hs
  rcases hnm.eq_or_lt with e | hlt
  · rw [e]
  · have h3 : (n : ℝ) + 1 ≤ m := by exact_mod_cast hlt
    rw [abs_le] at h1 h2
    have b0 : |(n : ℝ)| ≤ 49400 := by rw [abs_le]; constructor <;> linarith
    have b1 : |(m : ℝ)| ≤ 49400 := by rw [abs_le]; constructor <;> linarith
    have g := meanPhase_growth _ _ b0 b1 (by linarith)
    have c0 := abs_le.1 (newK_near b0)
    have c1 := abs_le.1 (newK_near b1)
    norm_num at *
    linarith [c0.1, c0.2, c1.1, c1.2]

/-! ### C93: distance of the mean phases from the true ones -/

/-- C93, the part that holds: the mean New and Full Moon is within 0.6613 day, the mean quarters within 0.8653 day of the true ones (−1900 to 5900).
Missing: the documented half day, which is false. -/
theorem C93_mean_near_partial (n : ℤ) (hn : |n| ≤ 49000) :
    |Moonphase.New (lunationYear n) - Moonphase.MeanNew (lunationYear n)| ≤ 0.6613 ∧
    |Moonphase.First (lunationYear (n + 1 / 4)) - Moonphase.MeanFirst (lunationYear (n + 1 / 4))| ≤ 0.8653 ∧
    |Moonphase.Full (lunationYear (n + 1 / 2)) - Moonphase.MeanFull (lunationYear (n + 1 / 2))| ≤ 0.6613 ∧
    |Moonphase.Last (lunationYear (n + 3 / 4)) - Moonphase.MeanLast (lunationYear (n + 3 / 4))| ≤ 0.8653 := by
  have hn' : |(n : ℝ)| ≤ 49000 := by exact_mod_cast hn
  rw [abs_le] at hn'
  have b0 : |(n : ℝ)| ≤ 49400 := by rw [abs_le]; constructor <;> linarith
  have b1 : |(n : ℝ) + 1 / 4| ≤ 49400 := by rw [abs_le]; constructor <;> linarith
  have b2 : |(n : ℝ) + 1 / 2| ≤ 49400 := by rw [abs_le]; constructor <;> linarith
  have b3 : |(n : ℝ) + 3 / 4| ≤ 49400 := by rw [abs_le]; constructor <;> linarith
  have e1 : (0.25 : ℝ) = 1 / 4 := by norm_num
  have e2 : (0.5 : ℝ) = 1 / 2 := by norm_num
  have e3 : (0.75 : ℝ) = 3 / 4 := by norm_num
  have s0 := snap_lunationYear n 0
  have s1 := snap_lunationYear n 0.25
  have s2 := snap_lunationYear n 0.5
  have s3 := snap_lunationYear n 0.75
  rw [e1] at s1; rw [e2] at s2; rw [e3] at s3; rw [add_zero] at s0
  unfold Moonphase.MeanNew Moonphase.MeanFirst Moonphase.MeanFull Moonphase.MeanLast
  rw [New_lunation, First_lunation, Full_lunation, Last_lunation, e1, e2, e3, s0, s1, s2, s3]
  exact ⟨newK_near b0, firstK_near b1, fullK_near b2, lastK_near b3⟩

/-- C93.  The New Moon of lunation 3 (April 2000) is more than half a day after the mean New Moon. -/
theorem C93_half_day_violation : Moonphase.New (lunationYear (3 : ℤ)) - Moonphase.MeanNew (lunationYear (3 : ℤ)) > 0.5 := by
  have s0 := snap_lunationYear 3 0
  rw [add_zero] at s0
  unfold Moonphase.MeanNew
  rw [New_lunation, s0]
  have a2 := abs_le.1 (a_abs ((3 : ℤ) : ℝ))
  have key : Moonphase.newK ((3 : ℤ) : ℝ) - Moonphase.mean (((3 : ℤ) : ℝ) * Moonphase.ck) =
      Moonphase.nfc (Moonphase.newMpK ((3 : ℤ) : ℝ)) Moonphase.nc + Moonphase.a (Moonphase.newMpK ((3 : ℤ) : ℝ)) := by
    unfold Moonphase.newK; dsimp only [Moonphase.newMpK]; ring
  rw [key]
  set m := Moonphase.newMpK ((3 : ℤ) : ℝ) with hm
  have hpi := Real.pi_gt_d2
  have hpi' := Real.pi_lt_d2
  have hE : 0.99 ≤ m.E ∧ m.E ≤ 1 := by
    rw [hm]; unfold Moonphase.newMpK Moonphase.ck hornerR; norm_num
  have hM' : Real.sin m.M' ≤ -0.98 := by
    have e : m.M' = -(Real.pi / 2) + (m.M' - 1350 * deg) + (4 : ℕ) * (2 * Real.pi) := by unfold deg; push_cast; ring
    have hx : 0 ≤ m.M' - 1350 * deg ∧ m.M' - 1350 * deg ≤ 9.02 * deg := by
      rw [hm]; unfold Moonphase.newMpK Moonphase.ck hornerR
      have : 0 < deg := by unfold deg; positivity
      norm_num
      constructor <;> linarith
    rw [e, Real.sin_add_nat_mul_two_pi, show -(Real.pi / 2) + (m.M' - 1350 * deg) = (m.M' - 1350 * deg) - Real.pi / 2 by ring, Real.sin_sub_pi_div_two]
    have hb : m.M' - 1350 * deg ≤ 0.16 := by refine hx.2.trans ?_; unfold deg; norm_num at *; linarith
    have := Real.one_sub_sq_div_two_le_cos (x := m.M' - 1350 * deg)
    norm_num at *
    nlinarith [hx.1]
  have hM : 0.98 ≤ Real.sin m.M := by
    have e : m.M = Real.pi / 2 - (90 * deg - m.M) := by unfold deg; ring
    have hx : 0 ≤ 90 * deg - m.M ∧ 90 * deg - m.M ≤ 0.14 * deg := by
      rw [hm]; unfold Moonphase.newMpK Moonphase.ck hornerR
      have : 0 < deg := by unfold deg; positivity
      norm_num
      constructor <;> linarith
    rw [e, Real.sin_pi_div_two_sub]
    have hb : 90 * deg - m.M ≤ 0.16 := by refine hx.2.trans ?_; unfold deg; norm_num at *; linarith
    have := Real.one_sub_sq_div_two_le_cos (x := 90 * deg - m.M)
    norm_num at *
    nlinarith [hx.1]
  unfold Moonphase.nfc
  dsimp only
  rw [series_cons, series_cons]
  generalize hS : series Real.sin _ = S
  have hb : |S| ≤ 0.05 := by
    rw [← hS]
    refine (series_sin_abs _).trans ?_
    have e : |m.E| = m.E := abs_of_nonneg (by norm_num at hE; linarith [hE.1])
    have h2 : m.E * m.E ≤ 1 := by norm_num at hE; nlinarith [hE.1, hE.2]
    simp only [Moonphase.nc, List.getD_cons_zero, List.getD_cons_succ, List.map_cons, List.map_nil, List.sum_cons, List.sum_nil, abs_mul, e, abs_neg]
    norm_num [abs_of_pos] at hE ⊢
    nlinarith [hE.1, hE.2]
  rw [abs_le] at hb
  have hEM : 0.97 ≤ m.E * Real.sin m.M := by
    have := Real.sin_le_one m.M
    norm_num at *
    nlinarith [hE.1, hE.2]
  simp only [Moonphase.nc, List.getD_cons_zero, List.getD_cons_succ]
  norm_num at *
  nlinarith [hb.1, a2.1]

/-! ### C91: apsides and nodes -/

theorem apsis_growth (k l : ℝ) (hk : |k| ≤ 53000) (hl : |l| ≤ 53000) (h : k ≤ l) :
    (l - k) * 27.55 ≤ Apsis.mean (l * Apsis.ck) - Apsis.mean (k * Apsis.ck) := by
  have hck : (0 : ℝ) < Apsis.ck := by unfold Apsis.ck; norm_num
  have b : ∀ k : ℝ, |k| ≤ 53000 → |k * Apsis.ck| ≤ 40 := by
    intro k hk
    unfold Apsis.ck
    rw [abs_mul, abs_of_pos (a := (1 : ℝ) / 1325.55) (by norm_num)]
    norm_num at *; linarith
  have g := quartic_growth 2451534.6698 (27.55454989 / Apsis.ck) (-0.0006691) (-0.000001098) 0.0000000052 _ _ 40 (by norm_num) (b k hk) (b l hl)
    (mul_le_mul_of_nonneg_right h hck.le)
  refine le_trans ?_ g
  rw [abs_neg, abs_neg, abs_of_pos (by norm_num), abs_of_pos (by norm_num), abs_of_pos (by norm_num)]
  unfold Apsis.ck
  have : 0 ≤ l - k := by linarith
  norm_num
  nlinarith

theorem apsis_T (k : ℝ) (hk : |k| ≤ 53000) : |(Apsis.newLaK k).T| ≤ 40 := by
  dsimp only [Apsis.newLaK]
  unfold Apsis.ck
  rw [abs_mul, abs_of_pos (a := (1 : ℝ) / 1325.55) (by norm_num)]
  norm_num at *; linarith

theorem pc_abs (l : Apsis.La) (hT : |l.T| ≤ 40) : |Apsis.pc l| ≤ 3 := by
  refine (series_sin_abs _).trans ?_
  rw [abs_le] at hT
  have a1 : |(-0.0773 : ℝ) + 0.00019 * l.T| ≤ 0.09 := by rw [abs_le]; constructor <;> norm_num <;> linarith [hT.1, hT.2]
  have a2 : |(0.0502 : ℝ) - 0.00013 * l.T| ≤ 0.06 := by rw [abs_le]; constructor <;> norm_num <;> linarith [hT.1, hT.2]
  have a3 : |(0.0422 : ℝ) - 0.00011 * l.T| ≤ 0.05 := by rw [abs_le]; constructor <;> norm_num <;> linarith [hT.1, hT.2]
  simp only [List.map_cons, List.map_nil, List.sum_cons, List.sum_nil]
  norm_num [abs_of_pos] at a1 a2 a3 ⊢
  linarith

theorem ac_abs (l : Apsis.La) (hT : |l.T| ≤ 40) : |Apsis.ac l| ≤ 0.8 := by
  refine (series_sin_abs _).trans ?_
  rw [abs_le] at hT
  have a1 : |(0.0456 : ℝ) - 0.00011 * l.T| ≤ 0.06 := by rw [abs_le]; constructor <;> norm_num <;> linarith [hT.1, hT.2]
  have a2 : |(0.0426 : ℝ) - 0.00011 * l.T| ≤ 0.06 := by rw [abs_le]; constructor <;> norm_num <;> linarith [hT.1, hT.2]
  simp only [List.map_cons, List.map_nil, List.sum_cons, List.sum_nil]
  norm_num [abs_of_pos] at a1 a2 ⊢
  linarith

/-- The decimal year at which the linear estimate (50.2) is k. -/
noncomputable def apsisYear (k : ℝ) : ℝ := 1999.97 + k / 13.2555

theorem Perigee_k (n : ℤ) : Apsis.Perigee (apsisYear n) = Apsis.perigeeK n ∧ Apsis.PerigeeParallax (apsisYear n) = Apsis.pp (Apsis.newLaK n) := by
  have := snap_at n 0 ((apsisYear n - 1999.97) * 13.2555) (by unfold apsisYear; norm_num)
  rw [add_zero] at this
  unfold Apsis.Perigee Apsis.PerigeeParallax Apsis.snap
  rw [add_zero, this]; simp

theorem Apogee_k (n : ℤ) : Apsis.Apogee (apsisYear (n + 1 / 2)) = Apsis.apogeeK (n + 1 / 2) ∧
    Apsis.ApogeeParallax (apsisYear (n + 1 / 2)) = Apsis.ap (Apsis.newLaK (n + 1 / 2)) := by
  have e : (0.5 : ℝ) = 1 / 2 := by norm_num
  have := snap_at n 0.5 ((apsisYear (n + 1 / 2) - 1999.97) * 13.2555) (by unfold apsisYear; norm_num)
  rw [show (n : ℝ) + 0.5 = n + 1 / 2 by rw [e]] at this
  unfold Apsis.Apogee Apsis.ApogeeParallax Apsis.snap
  rw [this]; simp

/-- C91.  Perigees and apogees alternate, at least nine days apart, for ±52000 anomalistic months (±3900 years). -/
theorem C91_apsides_alternate (n : ℤ) (hn : |n| ≤ 52000) :
    Apsis.Perigee (apsisYear n) + 9 < Apsis.Apogee (apsisYear (n + 1 / 2)) ∧
    Apsis.Apogee (apsisYear (n + 1 / 2)) + 9 < Apsis.Perigee (apsisYear ((n + 1 : ℤ) : ℝ)) := by
  have hn' : |(n : ℝ)| ≤ 52000 := by exact_mod_cast hn
  rw [abs_le] at hn'
  rw [(Perigee_k _).1, (Apogee_k _).1, (Perigee_k _).1]
  push_cast
  have b0 : |(n : ℝ)| ≤ 53000 := by rw [abs_le]; constructor <;> linarith
  have b1 : |(n : ℝ) + 1 / 2| ≤ 53000 := by rw [abs_le]; constructor <;> linarith
  have b2 : |(n : ℝ) + 1| ≤ 53000 := by rw [abs_le]; constructor <;> linarith
  have g1 := apsis_growth _ _ b0 b1 (by linarith)
  have g2 := apsis_growth _ _ b1 b2 (by linarith)
  have c0 := abs_le.1 (pc_abs _ (apsis_T _ b0))
  have c1 := abs_le.1 (ac_abs _ (apsis_T _ b1))
  have c2 := abs_le.1 (pc_abs _ (apsis_T _ b2))
  have t : ∀ k, (Apsis.newLaK k).T = k * Apsis.ck := fun _ => rfl
  unfold Apsis.perigeeK Apsis.apogeeK
  dsimp only
  rw [t, t, t]
  constructor <;> norm_num at * <;> linarith [c0.1, c0.2, c1.1, c1.2, c2.1, c2.2]

/-- C91.  The parallax at every perigee exceeds that at every apogee: it is at least 3540″ against at most 3260″ (±3900 years). -/
theorem C91_parallax (n m : ℤ) (hn : |n| ≤ 52000) (hm : |m| ≤ 52000) :
    Apsis.ApogeeParallax (apsisYear (m + 1 / 2)) < 3260 ∧ 3540 < Apsis.PerigeeParallax (apsisYear n) := by
  have hn' : |(n : ℝ)| ≤ 52000 := by exact_mod_cast hn
  have hm' : |(m : ℝ)| ≤ 52000 := by exact_mod_cast hm
  rw [(Perigee_k _).2, (Apogee_k _).2]
  have T1 := abs_le.1 (apsis_T n (by linarith))
  have T2 := abs_le.1 (apsis_T (m + 1 / 2) (by rw [abs_le] at hm' ⊢; constructor <;> linarith))
  unfold Apsis.ap Apsis.pp
  dsimp only
  set l := Apsis.newLaK n
  set l' := Apsis.newLaK (m + 1 / 2)
  constructor
  · generalize hS : series Real.cos _ = S
    have hb : |S| ≤ 14 := by
      rw [← hS]
      refine (series_cos_abs _).trans ?_
      have a1 : |(-0.656 : ℝ) + 0.0016 * l'.T| ≤ 0.75 := by rw [abs_le]; constructor <;> norm_num <;> linarith [T2.1, T2.2]
      simp only [List.map_cons, List.map_nil, List.sum_cons, List.sum_nil]
      norm_num [abs_of_pos] at a1 ⊢
      linarith
    rw [abs_le] at hb
    norm_num; linarith [hb.2]
  · generalize hS : series Real.cos _ = S
    have hb : |S| ≤ 88 := by
      rw [← hS]
      refine (series_cos_abs _).trans ?_
      have a1 : |(2.834 : ℝ) - 0.0071 * l.T| ≤ 3.2 := by rw [abs_le]; constructor <;> norm_num <;> linarith [T1.1, T1.2]
      have a2 : |(0.696 : ℝ) - 0.0017 * l.T| ≤ 0.8 := by rw [abs_le]; constructor <;> norm_num <;> linarith [T1.1, T1.2]
      have a3 : |(-0.629 : ℝ) + 0.0016 * l.T| ≤ 0.7 := by rw [abs_le]; constructor <;> norm_num <;> linarith [T1.1, T1.2]
      simp only [List.map_cons, List.map_nil, List.sum_cons, List.sum_nil]
      norm_num [abs_of_pos] at a1 a2 a3 ⊢
      linarith
    rw [abs_le] at hb
    norm_num; linarith [hb.1]

/-- The decimal year at which the linear estimate of the node number is k. -/
noncomputable def nodeYear (k : ℝ) : ℝ := 2000.05 + k / 13.4223

/-- C91.  Ascending and descending nodes alternate, at least 11.9 days apart, for ±52000 draconic months. -/
theorem C91_nodes_alternate (n : ℤ) (hn : |n| ≤ 52000) :
    Moonnode.Ascending (nodeYear n) + 11.9 < Moonnode.Descending (nodeYear (n + 1 / 2)) ∧
    Moonnode.Descending (nodeYear (n + 1 / 2)) + 11.9 < Moonnode.Ascending (nodeYear ((n + 1 : ℤ) : ℝ)) := by
  have asc : ∀ n : ℤ, Moonnode.Ascending (nodeYear n) = Moonnode.nodeK n := by
    intro n
    have := snap_at n 0 ((nodeYear n - 2000.05) * 13.4223) (by unfold nodeYear; norm_num)
    unfold Moonnode.Ascending Moonnode.snap
    rw [this, add_zero]
  have desc : Moonnode.Descending (nodeYear (n + 1 / 2)) = Moonnode.nodeK (n + 1 / 2) := by
    have e : (0.5 : ℝ) = 1 / 2 := by norm_num
    have := snap_at n 0.5 ((nodeYear (n + 1 / 2) - 2000.05) * 13.4223) (by unfold nodeYear; norm_num)
    unfold Moonnode.Descending Moonnode.snap
    rw [this, e]
  rw [asc, desc, asc]
  push_cast
  have hn' : |(n : ℝ)| ≤ 52000 := by exact_mod_cast hn
  rw [abs_le] at hn'
  have bT : ∀ k : ℝ, |k| ≤ 53000 → |k * Moonnode.ck| ≤ 40 := by
    intro k hk
    unfold Moonnode.ck
    rw [abs_mul, abs_of_pos (a := (1 : ℝ) / 1342.23) (by norm_num)]
    norm_num at *; linarith
  have hck : (0 : ℝ) < Moonnode.ck := by unfold Moonnode.ck; norm_num
  set mean : ℝ → ℝ := fun T => hornerR T [2451565.1619, 27.212220817 / Moonnode.ck, 0.0002762, 0.000000021, -0.000000000088] with hmean
  have near : ∀ k : ℝ, |k| ≤ 53000 → |Moonnode.nodeK k - mean (k * Moonnode.ck)| ≤ 0.8 := by
    intro k hk
    obtain ⟨h1, h2⟩ := E_bound _ (bT k hk)
    have e : Moonnode.nodeK k - mean (k * Moonnode.ck) = Moonnode.nodeK k - mean (k * Moonnode.ck) := rfl
    unfold Moonnode.nodeK
    dsimp only [hmean]
    rw [add_sub_cancel_left]
    refine (series_sin_abs _).trans ?_
    set E := hornerR (k * Moonnode.ck) [1, -0.002516, -0.0000074]
    have eE : |E| = E := abs_of_nonneg (by norm_num at h1; linarith)
    simp only [List.map_cons, List.map_nil, List.sum_cons, List.sum_nil, abs_mul, eE, abs_neg]
    norm_num [abs_of_pos] at h2 ⊢
    linarith
  have grow : ∀ k l : ℝ, |k| ≤ 53000 → |l| ≤ 53000 → k ≤ l → (l - k) * 27.2 ≤ mean (l * Moonnode.ck) - mean (k * Moonnode.ck) := by
    intro k l hk hl h
    have g := quartic_growth 2451565.1619 (27.212220817 / Moonnode.ck) 0.0002762 0.000000021 (-0.000000000088) _ _ 40 (by norm_num) (bT k hk) (bT l hl)
      (mul_le_mul_of_nonneg_right h hck.le)
    refine le_trans ?_ g
    rw [abs_neg, abs_of_pos (by norm_num), abs_of_pos (by norm_num), abs_of_pos (by norm_num)]
    unfold Moonnode.ck
    have : 0 ≤ l - k := by linarith
    norm_num
    nlinarith
  have b0 : |(n : ℝ)| ≤ 53000 := by rw [abs_le]; constructor <;> linarith
  have b1 : |(n : ℝ) + 1 / 2| ≤ 53000 := by rw [abs_le]; constructor <;> linarith
  have b2 : |(n : ℝ) + 1| ≤ 53000 := by rw [abs_le]; constructor <;> linarith
  have g1 := grow _ _ b0 b1 (by linarith)
  have g2 := grow _ _ b1 b2 (by linarith)
  have c0 := abs_le.1 (near _ b0)
  have c1 := abs_le.1 (near _ b1)
  have c2 := abs_le.1 (near _ b2)
  clear_value mean
  constructor <;> norm_num at * <;> linarith [c0.1, c0.2, c1.1, c1.2, c2.1, c2.2]

/-! ### C92: the argument A1 -/

/-- The argument A1 of chapter 49 (p. 351), as package eclipse computes it (v3/eclipse/eclipse.go:36). -/
noncomputable def argA1 (k : ℝ) : ℝ := (299.77 + 0.107408 * k - 0.009173 * (k / 1236.85) ^ 2) * deg

/-- `New` with the argument A1 of the chapter. -/
noncomputable def newWithA1 (k : ℝ) : ℝ :=
  let m := Moonphase.newMpK k
  Moonphase.mean m.T + Moonphase.nfc m Moonphase.nc + series Real.sin (List.zip Moonphase.ac (argA1 k :: m.A.tail))

/-- C92, the part that holds: the error made by the wrong argument is at most 0.00065 day (56 seconds).  Missing: equality. -/
theorem C92_A1_partial (n : ℤ) : |Moonphase.New (lunationYear n) - newWithA1 n| ≤ 0.00065 := by
  rw [New_lunation]
  have e : Moonphase.newK n - newWithA1 n = 0.000325 * (Real.sin ((Moonphase.newMpK n).A.getD 0 0) - Real.sin (argA1 n)) := by
    unfold Moonphase.newK newWithA1 Moonphase.a
    simp only [Moonphase.newMpK, Moonphase.ac, List.zip_cons_cons, List.tail_cons, series_cons, List.getD_cons_zero]
    ring
  rw [e, abs_mul, abs_of_pos (by norm_num : (0 : ℝ) < 0.000325)]
  have h1 := abs_le.1 (Real.abs_sin_le_one ((Moonphase.newMpK n).A.getD 0 0))
  have h2 := abs_le.1 (Real.abs_sin_le_one (argA1 n))
  have : |Real.sin ((Moonphase.newMpK n).A.getD 0 0) - Real.sin (argA1 n)| ≤ 2 := by rw [abs_le]; constructor <;> linarith [h1.1, h1.2, h2.1, h2.2]
  linarith

/-- C92.  At lunation 0 (January 2000) the New Moon is not the one with the argument A1 of the chapter: the code has 299.7° for 299.77°. -/
theorem C92_A1_violation : Moonphase.New (lunationYear (0 : ℤ)) ≠ newWithA1 ((0 : ℤ) : ℝ) := by
  rw [New_lunation]
  have e : Moonphase.newK ((0 : ℤ) : ℝ) - newWithA1 ((0 : ℤ) : ℝ) = 0.000325 * (Real.sin (299.7 * deg) - Real.sin (299.77 * deg)) := by
    unfold Moonphase.newK newWithA1 Moonphase.a
    simp only [Moonphase.newMpK, Moonphase.ac, List.zip_cons_cons, List.tail_cons, series_cons, argA1]
    norm_num
    ring
  intro h
  rw [h, sub_self] at e
  have hd : 0 < deg := by unfold deg; positivity
  have hp : Real.pi = 180 * deg := by unfold deg; ring
  have e1 : Real.sin (299.7 * deg) = -Real.cos (29.7 * deg) := by
    rw [← Real.sin_sub_pi_div_two, ← Real.sin_sub_two_pi]; congr 1; rw [hp]; ring
  have e2 : Real.sin (299.77 * deg) = -Real.cos (29.77 * deg) := by
    rw [← Real.sin_sub_pi_div_two, ← Real.sin_sub_two_pi]; congr 1; rw [hp]; ring
  have : Real.cos (29.77 * deg) < Real.cos (29.7 * deg) :=
    Real.cos_lt_cos_of_nonneg_of_le_pi (by positivity) (by rw [hp]; norm_num; linarith) (by norm_num; linarith)
  rw [e1, e2] at e
  norm_num at e this
  linarith

end Verif.Props
