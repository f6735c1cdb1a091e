import Verif.Props.Moon
import Verif.Props.MoonPos
import Verif.Model.Eclipse
import Verif.Model.Solar
import Verif.Lemmas.PolyComp
/-
C165: the arguments of the lunar packages against the mean arguments of the Moon in package moonposition.
-/
namespace Verif.Props

open Real Verif.Spec Verif.Go Verif.Model Verif.Lemmas Verif.Lemmas.PolyQ

/-- Two angles agree modulo whole turns, within `ε` degrees. -/
def Congr (a b ε : ℝ) : Prop := ∃ m : ℤ, |a - b - m * (2 * π)| ≤ ε * deg

/-- Mean arguments of the Moon, in degrees. -/
def qD : List ℚ := [297.8501921, 445267.1114034, -0.0018819, 1 / 545868, -1 / 113065000]
def qM : List ℚ := [357.5291092, 35999.0502909, -0.0001535, 1 / 24490000]
def qM' : List ℚ := [134.9633964, 477198.8675055, 0.0087414, 1 / 69699, -1 / 14712000]
def qF : List ℚ := [93.272095, 483202.0175233, -0.0036539, -1 / 3526000, 1 / 863310000]
def qΩ : List ℚ := [125.0445479, -1934.1362891, 0.0020754]

theorem argD_ev (T : ℝ) : Moonposition.argD T = deg * ev qD T := by
  simp only [Moonposition.argD, hornerR, List.foldr, ev, qD]; push_cast; ring
theorem argM_ev (T : ℝ) : Moonposition.argM T = deg * ev qM T := by
  simp only [Moonposition.argM, hornerR, List.foldr, ev, qM]; push_cast; ring
theorem argM'_ev (T : ℝ) : Moonposition.argM' T = deg * ev qM' T := by
  simp only [Moonposition.argM', hornerR, List.foldr, ev, qM']; push_cast; ring
theorem argF_ev (T : ℝ) : Moonposition.argF T = deg * ev qF T := by
  simp only [Moonposition.argF, hornerR, List.foldr, ev, qF]; push_cast; ring
theorem node_ev (T : ℝ) : Moonposition.nodePoly T = deg * ev qΩ T := by
  have h1 : quo 1 467441 = 0 := by decide
  have h2 : quo (-1) 60616000 = 0 := by decide
  simp only [Moonposition.nodePoly, hornerR, List.foldr, ev, qΩ, h1, h2]; push_cast; ring

/-- From degrees to the congruence. -/
theorem congr_of {A M B : List ℚ} {m : ℤ} {R ε : ℚ} (hR : 0 < R) (h : l1 (pcomp (resid A M B m) [0, R]) ≤ ε) {T j a b : ℝ} (hT : |T| ≤ R)
    (hj : j = ev M T) (ha : a = deg * ev A (J2000Century j)) (hb : b = deg * ev B T) : Congr a b ε := by
  refine ⟨m, ?_⟩
  have k := resid_bound A M B m R ε hR h hT
  have hd : (0 : ℝ) < deg := by unfold deg; positivity
  have e : a - b - m * (2 * π) = deg * (ev A ((ev M T - 2451545) / 36525) - ev B T - 360 * m) := by
    rw [ha, hb, hj]; unfold J2000Century deg; ring
  rw [e, abs_mul, abs_of_pos hd, mul_comm]
  exact mul_le_mul_of_nonneg_right k hd.le

theorem congr_turns {a b ε : ℝ} (n : ℤ) (h : Congr a (b + n * (2 * π)) ε) : Congr a b ε := by
  obtain ⟨m, hm⟩ := h
  refine ⟨m + n, ?_⟩
  push_cast
  rwa [show a - b - (m + n) * (2 * π) = a - (b + n * (2 * π)) - m * (2 * π) by ring]

/-! Phases -/

def mPhase : List ℚ := [2451550.09766, 29.530588861 * 1236.85, 0.00015437, -0.00000015, 0.00000000073]
def pD : List ℚ := [0, 360 * 1236.85]
def pM : List ℚ := [2.5534, 29.1053567 * 1236.85, -0.0000014, -0.00000011]
def pM' : List ℚ := [201.5643, 385.81693528 * 1236.85, 0.0107582, 0.00001238, -0.000000058]
def pF : List ℚ := [160.7108, 390.67050284 * 1236.85, -0.0016118, -0.00000227, 0.000000011]
def pΩ : List ℚ := [124.7746, -1.56375588 * 1236.85, 0.0020672, 0.00000215]

theorem pD_l1 : l1 (pcomp (resid qD mPhase pD 1) [0, 3001 / 100]) ≤ 6 / 1000 := by decide +kernel
theorem pM_l1 : l1 (pcomp (resid qM mPhase pM 1) [0, 3001 / 100]) ≤ 1 / 1000 := by decide +kernel
theorem pM'_l1 : l1 (pcomp (resid qM' mPhase pM' 0) [0, 3001 / 100]) ≤ 1 / 1000 := by decide +kernel
theorem pF_l1 : l1 (pcomp (resid qF mPhase pF 0) [0, 3001 / 100]) ≤ 4 / 10000 := by decide +kernel
theorem pΩ_l1 : l1 (pcomp (resid qΩ mPhase pΩ 0) [0, 3001 / 100]) ≤ 6 / 100 := by decide +kernel

theorem mPhase_ev (T : ℝ) : Moonphase.mean T = ev mPhase T := by
  simp only [Moonphase.mean, Moonphase.ck, hornerR, List.foldr, ev, mPhase]; push_cast; ring

/-- **C165.**  The arguments of the phases are the mean arguments of the Moon at the mean phase: elongation 360° k, anomalies, argument of latitude and
node, from 1000 years before our era to the year 5000. -/
theorem C165_phase_arguments (k : ℝ) (h : |k| ≤ 37117) :
    let m := Moonphase.newMpK k
    let t := J2000Century (Moonphase.mean m.T)
    Congr (Moonposition.argD t) (k * (2 * π)) 0.006 ∧ Congr (Moonposition.argM t) m.M 0.001 ∧ Congr (Moonposition.argM' t) m.M' 0.001 ∧
    Congr (Moonposition.argF t) m.F 0.0004 ∧ Congr (Moonposition.nodePoly t) m.Ω 0.06 := by
  intro m t
  have hT : |m.T| ≤ ((3001 / 100 : ℚ) : ℝ) := by
    show |k * Moonphase.ck| ≤ _
    unfold Moonphase.ck
    rw [abs_mul, abs_of_pos (by norm_num : (0 : ℝ) < 1 / 1236.85)]
    push_cast; norm_num at *; linarith
  have hk : k = m.T * 1236.85 := by
    show k = k * Moonphase.ck * 1236.85
    unfold Moonphase.ck; ring
  have hm := mPhase_ev m.T
  refine ⟨?_, ?_, ?_, ?_, ?_⟩
  · have := congr_of (by norm_num) pD_l1 hT hm (argD_ev t) (b := k * (2 * π)) (by
      rw [hk]; simp only [ev, pD]; push_cast; unfold deg; ring)
    norm_num at this ⊢; exact this
  · have := congr_of (by norm_num) pM_l1 hT hm (argM_ev t) (b := m.M) (by
      show hornerR m.T _ = _
      simp only [hornerR, List.foldr, ev, pM, Moonphase.ck]; push_cast; ring)
    norm_num at this ⊢; exact this
  · have := congr_of (by norm_num) pM'_l1 hT hm (argM'_ev t) (b := m.M') (by
      show hornerR m.T _ = _
      simp only [hornerR, List.foldr, ev, pM', Moonphase.ck]; push_cast; ring)
    norm_num at this ⊢; exact this
  · have := congr_of (by norm_num) pF_l1 hT hm (argF_ev t) (b := m.F) (by
      show hornerR m.T _ = _
      simp only [hornerR, List.foldr, ev, pF, Moonphase.ck]; push_cast; ring)
    norm_num at this ⊢; exact this
  · have := congr_of (by norm_num) pΩ_l1 hT hm (node_ev t) (b := m.Ω) (by
      show hornerR m.T _ = _
      simp only [hornerR, List.foldr, ev, pΩ, Moonphase.ck]; push_cast; ring)
    norm_num at this ⊢; exact this

/-- A lunation number found from a year between -1000 and 5000. -/
theorem snap_range {y : ℝ} (q : ℝ) (h : |y - 2000| ≤ 3000) :
    ∃ n : ℤ, Moonphase.snap y q = n + q ∧ |Moonphase.snap y q| ≤ 37117 := by
  obtain ⟨n, h1, h2⟩ := snap_nearest y q
  refine ⟨n, h1, ?_⟩
  rw [h1]
  rw [abs_le] at *
  constructor <;> norm_num at * <;> linarith

/-- **C165.**  At the mean new moon, first quarter, full moon and last quarter the mean elongation of the Moon in package moonposition is 0°, 90°,
180° and 270° within 0.006°, which the Moon covers in less than a minute. -/
theorem C165_mean_phases (y : ℝ) (h : |y - 2000| ≤ 3000) :
    Congr (Moonposition.argD (J2000Century (Moonphase.MeanNew y))) 0 0.006 ∧
    Congr (Moonposition.argD (J2000Century (Moonphase.MeanFirst y))) (π / 2) 0.006 ∧
    Congr (Moonposition.argD (J2000Century (Moonphase.MeanFull y))) π 0.006 ∧
    Congr (Moonposition.argD (J2000Century (Moonphase.MeanLast y))) (3 * π / 2) 0.006 := by
  have key : ∀ q : ℝ, Congr (Moonposition.argD (J2000Century (Moonphase.mean (Moonphase.snap y q * Moonphase.ck)))) (q * (2 * π)) 0.006 := by
    intro q
    obtain ⟨n, h1, h2⟩ := snap_range q h
    have := (C165_phase_arguments _ h2).1
    have e : (Moonphase.newMpK (Moonphase.snap y q)).T = Moonphase.snap y q * Moonphase.ck := rfl
    rw [e] at this
    apply congr_turns n
    rwa [show q * (2 * π) + n * (2 * π) = Moonphase.snap y q * (2 * π) by rw [h1]; ring]
  refine ⟨?_, ?_, ?_, ?_⟩
  · have := key 0
    rwa [zero_mul] at this
  · have := key 0.25
    rwa [show (0.25 : ℝ) * (2 * π) = π / 2 by ring] at this
  · have := key 0.5
    rwa [show (0.5 : ℝ) * (2 * π) = π by ring] at this
  · have := key 0.75
    rwa [show (0.75 : ℝ) * (2 * π) = 3 * π / 2 by ring] at this

/-- The year 1977. -/
example : |(1977.13 : ℝ) - 2000| ≤ 3000 := by norm_num [abs_le]

/-! Apsides -/

def mApsis : List ℚ := [2451534.6698, 27.55454989 * 1325.55, -0.0006691, -0.000001098, 0.0000000052]
def aM' : List ℚ := [0, 360 * 1325.55]
def aD : List ℚ := [171.9179, 335.9106046 * 1325.55, -0.0100383, -0.00001156, 0.000000055]
def aM : List ℚ := [347.3477, 27.1577721 * 1325.55, -0.000813, -0.000001]
def aF : List ℚ := [316.6109, 364.5287911 * 1325.55, -0.0125053, -0.0000148]

theorem aM'_l1 : l1 (pcomp (resid qM' mApsis aM' 0) [0, 3001 / 100]) ≤ 33 / 10000 := by decide +kernel
theorem aD_l1 : l1 (pcomp (resid qD mApsis aD 0) [0, 3001 / 100]) ≤ 45 / 10000 := by decide +kernel
theorem aM_l1 : l1 (pcomp (resid qM mApsis aM 0) [0, 3001 / 100]) ≤ 7 / 1000 := by decide +kernel
theorem aF_l1 : l1 (pcomp (resid qF mApsis aF (-1)) [0, 3001 / 100]) ≤ 63 / 1000 := by decide +kernel

theorem mApsis_ev (T : ℝ) : Apsis.mean T = ev mApsis T := by
  simp only [Apsis.mean, Apsis.ck, hornerR, List.foldr, ev, mApsis]; push_cast; ring

/-- **C165.**  The arguments of the perigees and apogees are the mean arguments of the Moon at that date: anomaly 360° k, elongation, anomaly of the
Sun, argument of latitude. -/
theorem C165_apsis_arguments (k : ℝ) (h : |k| ≤ 39778) :
    let m := Apsis.newLaK k
    let t := J2000Century (Apsis.mean m.T)
    Congr (Moonposition.argM' t) (k * (2 * π)) 0.0033 ∧ Congr (Moonposition.argD t) m.D 0.0045 ∧ Congr (Moonposition.argM t) m.M 0.007 ∧
    Congr (Moonposition.argF t) m.F 0.063 := by
  intro m t
  have hT : |m.T| ≤ ((3001 / 100 : ℚ) : ℝ) := by
    show |k * Apsis.ck| ≤ _
    unfold Apsis.ck
    rw [abs_mul, abs_of_pos (by norm_num : (0 : ℝ) < 1 / 1325.55)]
    push_cast; norm_num at *; linarith
  have hk : k = m.T * 1325.55 := by
    show k = k * Apsis.ck * 1325.55
    unfold Apsis.ck; ring
  have hm := mApsis_ev m.T
  refine ⟨?_, ?_, ?_, ?_⟩
  · have := congr_of (by norm_num) aM'_l1 hT hm (argM'_ev t) (b := k * (2 * π)) (by
      rw [hk]; simp only [ev, aM']; push_cast; unfold deg; ring)
    norm_num at this ⊢; exact this
  · have := congr_of (by norm_num) aD_l1 hT hm (argD_ev t) (b := m.D) (by
      show hornerR m.T _ = _
      simp only [hornerR, List.foldr, ev, aD, Apsis.ck]; push_cast; ring)
    norm_num at this ⊢; exact this
  · have := congr_of (by norm_num) aM_l1 hT hm (argM_ev t) (b := m.M) (by
      show hornerR m.T _ = _
      simp only [hornerR, List.foldr, ev, aM, Apsis.ck]; push_cast; ring)
    norm_num at this ⊢; exact this
  · have := congr_of (by norm_num) aF_l1 hT hm (argF_ev t) (b := m.F) (by
      show hornerR m.T _ = _
      simp only [hornerR, List.foldr, ev, aF, Apsis.ck]; push_cast; ring)
    norm_num at this ⊢; exact this

/-- **C165.**  At the mean perigee and apogee the mean anomaly of the Moon is 0° and 180° within 0.0033°. -/
theorem C165_mean_apsides (y : ℝ) (h : |y - 2000| ≤ 3000) :
    Congr (Moonposition.argM' (J2000Century (Apsis.MeanPerigee y))) 0 0.0033 ∧
    Congr (Moonposition.argM' (J2000Century (Apsis.MeanApogee y))) π 0.0033 := by
  have key : ∀ q : ℝ, Congr (Moonposition.argM' (J2000Century (Apsis.mean (Apsis.snap y q * Apsis.ck)))) (q * (2 * π)) 0.0033 := by
    intro q
    obtain ⟨⟨n, h1⟩, h3⟩ := snap_spec ((y - 1999.97) * 13.2555) q
    have hs : Apsis.snap y q = n + q := h1
    have h2 : |Apsis.snap y q| ≤ 39778 := by
      rw [hs]
      rw [h1] at h3
      rw [abs_le] at *
      constructor <;> norm_num at * <;> linarith
    have := (C165_apsis_arguments _ h2).1
    have e : (Apsis.newLaK (Apsis.snap y q)).T = Apsis.snap y q * Apsis.ck := rfl
    rw [e] at this
    apply congr_turns n
    rwa [show q * (2 * π) + n * (2 * π) = Apsis.snap y q * (2 * π) by rw [hs]; ring]
  refine ⟨?_, ?_⟩
  · have := key 0
    rwa [zero_mul] at this
  · have := key 0.5
    rwa [show (0.5 : ℝ) * (2 * π) = π by ring] at this

/-! Nodes -/

def mNode : List ℚ := [2451565.1619, 27.212220817 * 1342.23, 0.0002762, 0.000000021, -0.000000000088]
def nF : List ℚ := [0, 360 * 1342.23]
def nD : List ℚ := [183.638, 331.73735682 * 1342.23, 0.0014852, 0.00000209, -0.00000001]
def nM : List ℚ := [17.4006, 26.8203725 * 1342.23, 0.0001186, 0.00000006]
def nM' : List ℚ := [38.3776, 355.52747313 * 1342.23, 0.0123499, 0.000014627, -0.000000069]
def nΩ : List ℚ := [123.9767, -1.44098956 * 1342.23, 0.0020608, 0.00000214, -0.000000016]

theorem nF_l1 : l1 (pcomp (resid qF mNode nF 1) [0, 3001 / 100]) ≤ 12 / 10000 := by decide +kernel
theorem nD_l1 : l1 (pcomp (resid qD mNode nD 1) [0, 3001 / 100]) ≤ 12 / 10000 := by decide +kernel
theorem nM_l1 : l1 (pcomp (resid qM mNode nM 1) [0, 3001 / 100]) ≤ 5 / 10000 := by decide +kernel
theorem nM'_l1 : l1 (pcomp (resid qM' mNode nM' 1) [0, 3001 / 100]) ≤ 17 / 10000 := by decide +kernel
theorem nΩ_l1 : l1 (pcomp (resid qΩ mNode nΩ 0) [0, 3001 / 100]) ≤ 72 / 1000 := by decide +kernel

/-- The periodic terms of a passage through a node, as a function of the mean arguments of the Moon and two planetary arguments. -/
noncomputable def nodeTerms (E D M M' Ω V P : ℝ) : ℝ := series sin
    [(-0.4721, M'), (-0.1649, 2 * D), (-0.0868, 2 * D - M'), (0.0084, 2 * D + M'), (-0.0083 * E, 2 * D - M), (-0.0039 * E, 2 * D - M - M'),
     (0.0034, 2 * M'), (-0.0031, 2 * (D - M')), (0.003 * E, 2 * D + M), (0.0028 * E, M - M'), (0.0026 * E, M), (0.0025, 4 * D), (0.0024, D),
     (0.0022 * E, M + M'), (0.0017, Ω), (0.0014, 4 * D - M'), (0.0005 * E, 2 * D + M - M'), (0.0004 * E, 2 * D - M + M'),
     (-0.0003 * E, 2 * (D - M)), (0.0003 * E, 4 * D - M), (0.0003, V), (0.0003, P)]

/-- **C165.**  A passage through a node is a mean date plus periodic terms; at the mean date the argument of latitude of package moonposition is 360° k
(0° at the ascending, 180° at the descending node), and the arguments of the terms are the mean arguments of the Moon. -/
theorem C165_node_arguments (k : ℝ) (h : |k| ≤ 40277) :
    ∃ j E D M M' Ω V P : ℝ, Moonnode.nodeK k = j + nodeTerms E D M M' Ω V P ∧
    (let t := J2000Century j
     Congr (Moonposition.argF t) (k * (2 * π)) 0.0012 ∧ Congr (Moonposition.argD t) D 0.0012 ∧ Congr (Moonposition.argM t) M 0.0005 ∧
     Congr (Moonposition.argM' t) M' 0.0017 ∧ Congr (Moonposition.nodePoly t) Ω 0.072) := by
  obtain ⟨T, hTd⟩ : ∃ T, T = k * Moonnode.ck := ⟨_, rfl⟩
  have hT : |T| ≤ ((3001 / 100 : ℚ) : ℝ) := by
    rw [hTd]
    unfold Moonnode.ck
    rw [abs_mul, abs_of_pos (by norm_num : (0 : ℝ) < 1 / 1342.23)]
    push_cast; norm_num at *; linarith
  have hk : k = T * 1342.23 := by rw [hTd]; unfold Moonnode.ck; ring
  have hm : hornerR T [2451565.1619, 27.212220817 / Moonnode.ck, 0.0002762, 0.000000021, -0.000000000088] = ev mNode T := by
    simp only [Moonnode.ck, hornerR, List.foldr, ev, mNode]; push_cast; ring
  obtain ⟨p, hp⟩ : ∃ p, p = deg := ⟨_, rfl⟩
  obtain ⟨D, hD⟩ : ∃ D, D = hornerR T [183.638 * deg, 331.73735682 * deg / Moonnode.ck, 0.0014852 * deg, 0.00000209 * deg, -0.00000001 * deg] := ⟨_, rfl⟩
  obtain ⟨M, hM⟩ : ∃ M, M = hornerR T [17.4006 * deg, 26.8203725 * deg / Moonnode.ck, 0.0001186 * deg, 0.00000006 * deg] := ⟨_, rfl⟩
  obtain ⟨M', hM'⟩ : ∃ M', M' = hornerR T [38.3776 * deg, 355.52747313 * deg / Moonnode.ck, 0.0123499 * deg, 0.000014627 * deg, -0.000000069 * deg] := ⟨_, rfl⟩
  obtain ⟨Ω, hΩ⟩ : ∃ Ω, Ω = hornerR T [123.9767 * deg, -1.44098956 * deg / Moonnode.ck, 0.0020608 * deg, 0.00000214 * deg, -0.000000016 * deg] := ⟨_, rfl⟩
  refine ⟨hornerR T [2451565.1619, 27.212220817 / Moonnode.ck, 0.0002762, 0.000000021, -0.000000000088], hornerR T [1, -0.002516, -0.0000074], D, M, M', Ω,
    hornerR T [299.75 * deg, 132.85 * deg, -0.009173 * deg], Ω + 272.75 * deg - 2.3 * deg * T, ?_, ?_⟩
  · rw [hD, hM, hM', hΩ, hTd]; exact rfl
  refine ⟨?_, ?_, ?_, ?_, ?_⟩
  · have := congr_of (by norm_num) nF_l1 hT hm (argF_ev _) (b := k * (2 * π)) (by
      rw [hk]; simp only [ev, nF]; push_cast; unfold deg; ring)
    norm_num at this ⊢; exact this
  · have := congr_of (by norm_num) nD_l1 hT hm (argD_ev _) (b := D) (by
      rw [hD]; simp only [hornerR, List.foldr, ev, nD, Moonnode.ck]; push_cast; ring)
    norm_num at this ⊢; exact this
  · have := congr_of (by norm_num) nM_l1 hT hm (argM_ev _) (b := M) (by
      rw [hM]; simp only [hornerR, List.foldr, ev, nM, Moonnode.ck]; push_cast; ring)
    norm_num at this ⊢; exact this
  · have := congr_of (by norm_num) nM'_l1 hT hm (argM'_ev _) (b := M') (by
      rw [hM']; simp only [hornerR, List.foldr, ev, nM', Moonnode.ck]; push_cast; ring)
    norm_num at this ⊢; exact this
  · have := congr_of (by norm_num) nΩ_l1 hT hm (node_ev _) (b := Ω) (by
      rw [hΩ]; simp only [hornerR, List.foldr, ev, nΩ, Moonnode.ck]; push_cast; ring)
    norm_num at this ⊢; exact this

/-- **C165.**  The passages: the date of `Ascending` is one at which the mean argument of latitude is 0°, that of `Descending` one at which it is 180°,
within 0.0012°, with the periodic terms of the mean arguments at that date. -/
theorem C165_nodes (y : ℝ) (h : |y - 2000| ≤ 3000) :
    let arguments (j D M M' : ℝ) : Prop := Congr (Moonposition.argD (J2000Century j)) D 0.0012 ∧ Congr (Moonposition.argM (J2000Century j)) M 0.0005 ∧
      Congr (Moonposition.argM' (J2000Century j)) M' 0.0017
    (∃ j E D M M' Ω V P : ℝ, Moonnode.Ascending y = j + nodeTerms E D M M' Ω V P ∧ Congr (Moonposition.argF (J2000Century j)) 0 0.0012 ∧ arguments j D M M') ∧
    (∃ j E D M M' Ω V P : ℝ, Moonnode.Descending y = j + nodeTerms E D M M' Ω V P ∧ Congr (Moonposition.argF (J2000Century j)) π 0.0012 ∧ arguments j D M M') := by
  intro arguments
  have key : ∀ q : ℝ, ∃ j E D M M' Ω V P : ℝ, Moonnode.nodeK (Moonnode.snap y q) = j + nodeTerms E D M M' Ω V P ∧
      Congr (Moonposition.argF (J2000Century j)) (q * (2 * π)) 0.0012 ∧ arguments j D M M' := by
    intro q
    obtain ⟨⟨n, h1⟩, h3⟩ := snap_spec ((y - 2000.05) * 13.4223) q
    have hs : Moonnode.snap y q = n + q := h1
    have h2 : |Moonnode.snap y q| ≤ 40277 := by
      rw [hs]
      rw [h1] at h3
      rw [abs_le] at *
      constructor <;> norm_num at * <;> linarith
    obtain ⟨j, E, D, M, M', Ω, V, P, e, f1, f2, f3, f4, -⟩ := C165_node_arguments _ h2
    refine ⟨j, E, D, M, M', Ω, V, P, e, ?_, f2, f3, f4⟩
    apply congr_turns n
    rwa [show q * (2 * π) + n * (2 * π) = Moonnode.snap y q * (2 * π) by rw [hs]; ring]
  refine ⟨?_, ?_⟩
  · have := key 0
    rwa [zero_mul] at this
  · have := key 0.5
    rwa [show (0.5 : ℝ) * (2 * π) = π by ring] at this

/-- The passage of 1987. -/
example : |(-170 : ℝ)| ≤ 40277 := by norm_num

/-- **C165.**  The eclipses use the arguments of the phases. -/
theorem C165_eclipse_arguments (k : ℝ) :
    let m := Moonphase.newMpK k
    Eclipse.argF m.T = m.F ∧ Eclipse.argE m.T = m.E ∧ Eclipse.argM m.T = m.M ∧ Eclipse.argM' m.T = m.M' ∧ Eclipse.argΩ m.T = m.Ω :=
  ⟨rfl, rfl, rfl, rfl, rfl⟩

/-! The arguments among themselves -/

def qL : List ℚ := [218.3164477, 481267.88123421, -0.0015786, 1 / 538841, -1 / 65194000]
def qS : List ℚ := [280.46646, 36000.76983, 0.0003032]
def qA : List ℚ := [357.52911, 35999.05029, -0.0001537]
def qP : List ℚ := [83.3532465, 4069.0137287, -0.01032]

theorem qD_l1 : l1 (pcomp (padd (padd qD (psc (-1) qL)) (padd qS [-360])) [0, 30]) ≤ 7 / 1000 := by decide +kernel
theorem qF_l1 : l1 (pcomp (padd (padd qF (psc (-1) qL)) qΩ) [0, 30]) ≤ 72 / 1000 := by decide +kernel
theorem qP_l1 : l1 (pcomp (padd (padd qM' (psc (-1) qL)) qP) [0, 30]) ≤ 39 / 100 := by decide +kernel
theorem qM_l1 : l1 (pcomp (padd qM (psc (-1) qA)) [0, 30]) ≤ 2 / 1000 := by decide +kernel

/-- **C165.**  The mean arguments of the Moon are differences of the mean longitudes: elongation from the Sun of package solar, argument of latitude from
the node, anomaly from the perigee; and the anomaly of the Sun is that of package solar. -/
theorem C165_differences (T : ℝ) (h : |T| ≤ 30) :
    Congr (Moonposition.argD T) (Moonposition.meanLon T - Solar.meanLon T) 0.007 ∧
    Congr (Moonposition.argF T) (Moonposition.meanLon T - Moonposition.nodePoly T) 0.072 ∧
    Congr (Moonposition.argM' T) (Moonposition.meanLon T - Moonposition.perigeePoly T) 0.39 ∧
    Congr (Moonposition.argM T) (Solar.MeanAnomaly T) 0.002 := by
  have hL : Moonposition.meanLon T = deg * ev qL T := by
    simp only [Moonposition.meanLon, hornerR, List.foldr, ev, qL]; push_cast; ring
  have hS : Solar.meanLon T = deg * ev qS T := by
    simp only [Solar.meanLon, hornerR, List.foldr, ev, qS]; push_cast; ring
  have hA : Solar.MeanAnomaly T = deg * ev qA T := by
    simp only [Solar.MeanAnomaly, hornerR, List.foldr, ev, qA]; push_cast; ring
  have hP : Moonposition.perigeePoly T = deg * ev qP T := by
    have h1 : quo (-1) 80053 = 0 := by decide
    have h2 : quo 1 18999000 = 0 := by decide
    simp only [Moonposition.perigeePoly, hornerR, List.foldr, ev, qP, h1, h2]; push_cast; ring
  have hd : (0 : ℝ) < deg := by unfold deg; positivity
  have hT : |T| ≤ ((30 : ℚ) : ℝ) := by push_cast; exact h
  rw [hL, hS, hA, hP, argD_ev, argF_ev, argM'_ev, argM_ev, node_ev]
  have fin : ∀ (a b r ε : ℝ) (m : ℤ), a - b - m * (2 * π) = deg * r → |r| ≤ ε → Congr a b ε := fun a b r ε m h1 h2 =>
    ⟨m, by rw [h1, abs_mul, abs_of_pos hd, mul_comm]; exact mul_le_mul_of_nonneg_right h2 hd.le⟩
  have cst : ∀ {p : List ℚ} {e : ℚ}, l1 (pcomp p [0, 30]) ≤ e → |ev p T| ≤ (e : ℝ) := fun {p e} hp =>
    (abs_ev_le_scaled p 30 (by norm_num) hT).trans (by exact_mod_cast hp)
  refine ⟨fin _ _ _ _ 1 ?_ ((cst qD_l1).trans (by norm_num)), fin _ _ _ _ 0 ?_ ((cst qF_l1).trans (by norm_num)),
    fin _ _ _ _ 0 ?_ ((cst qP_l1).trans (by norm_num)), fin _ _ _ _ 0 ?_ ((cst qM_l1).trans (by norm_num))⟩ <;>
  · simp only [ev_padd, ev_psc]
    unfold deg
    push_cast; ring_nf; try simp only [ev]
    try push_cast
    try ring

end Verif.Props
