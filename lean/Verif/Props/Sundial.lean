import Verif.Model.Sundial
import Verif.Lemmas.Sphere
import Mathlib.Analysis.Real.Pi.Bounds
/-
C64, C65, C100, C101: planar sundials.
-/
namespace Verif.Props

open Real Verif.Go Verif.Model Verif.Spec Verif.Lemmas

/-- The results of `General` on which the simple dials report. -/
noncomputable def simpleOf (g : Sundial.General) : Sundial.Simple := ⟨g.lines, g.centerX, g.centerY, g.u⟩

/-- C64: the general dial with zenithal distance 90° is the vertical dial. -/
theorem C64_vertical (φ D a : ℝ) (hφ : cos φ ≠ 0) (hD : cos D ≠ 0) :
    simpleOf (Sundial.general φ D a (π / 2)) = Sundial.vertical φ D a := by
  have hp : Sundial.generalPoint φ D a (π / 2) = Sundial.verticalPoint φ D a := by
    funext i d
    unfold Sundial.generalPoint Sundial.verticalPoint
    dsimp only
    rw [sin_pi_div_two, cos_pi_div_two]
    by_cases hd : Sundial.down (sin φ / cos φ) (Sundial.hourAngle i) (Sundial.tanδ d)
    · rw [if_pos hd, if_pos hd]
    rw [if_neg hd, if_neg hd]
    have eQ : sin D * 1 * sin (Sundial.hourAngle i) + (cos φ * 0 + sin φ * 1 * cos D) * cos (Sundial.hourAngle i) +
        (sin φ * 0 - cos φ * 1 * cos D) * Sundial.tanδ d =
        sin D * sin (Sundial.hourAngle i) + sin φ * cos D * cos (Sundial.hourAngle i) - cos φ * cos D * Sundial.tanδ d := by ring
    rw [eQ]
    congr 4
    · congr 1; ring
    · congr 1; ring
  unfold simpleOf Sundial.general Sundial.vertical
  dsimp only
  rw [hp, sin_pi_div_two, cos_pi_div_two]
  congr 1
  · field_simp; ring
  · field_simp; ring
  · congr 1; rw [show sin φ * 0 - cos φ * 1 * cos D = -(cos φ * cos D) by ring, abs_neg]

/-- The tangents of the declinations used. -/
theorem tanδ_le {d : ℝ} (hd : d ∈ Sundial.m) : |Sundial.tanδ d| ≤ tan (23.44 * π / 180) := by
  have hp := pi_pos
  have hm : |d| ≤ 23.44 := by
    unfold Sundial.m at hd
    simp only [List.mem_cons, List.not_mem_nil, or_false] at hd
    rw [abs_le]
    rcases hd with rfl | rfl | rfl | rfl | rfl | rfl | rfl <;> norm_num
  obtain ⟨h1, h2⟩ := abs_le.1 hm
  unfold Sundial.tanδ
  have mono : StrictMonoOn tan (Set.Ioo (-(π / 2)) (π / 2)) := strictMonoOn_tan
  have m0 : (23.44 * π / 180) ∈ Set.Ioo (-(π / 2)) (π / 2) := by constructor <;> nlinarith
  have m1 : (d * π / 180) ∈ Set.Ioo (-(π / 2)) (π / 2) := by constructor <;> nlinarith
  have m2 : (-(23.44 * π / 180)) ∈ Set.Ioo (-(π / 2)) (π / 2) := by constructor <;> nlinarith
  rw [abs_le, ← tan_neg]
  exact ⟨(mono.le_iff_le m2 m1).2 (by nlinarith), (mono.le_iff_le m1 m0).2 (by nlinarith)⟩

/-- When the Sun rises and sets, the test of the code is that of its altitude. -/
theorem down_iff {φ H tδ : ℝ} (hφ : 0 < cos φ) (hr : |sin φ / cos φ * tδ| ≤ 1) (hH : |H| ≤ π) :
    Sundial.down (sin φ / cos φ) H tδ ↔ cos φ * cos H + sin φ * tδ < 0 := by
  unfold Sundial.down EF.acos
  have hb := abs_le.1 hr
  have hn : ¬ (-(sin φ / cos φ) * tδ < -1 ∨ 1 < -(sin φ / cos φ) * tδ) := by
    push Not
    constructor <;> linarith
  dsimp only
  rw [if_neg hn, EF.fin_lt]
  have h1 : arccos (-(sin φ / cos φ) * tδ) < |H| ↔ cos |H| < -(sin φ / cos φ) * tδ := by
    have hc := cos_arccos (x := -(sin φ / cos φ) * tδ) (by linarith) (by linarith)
    have := strictAntiOn_cos.lt_iff_gt (a := |H|) (b := arccos (-(sin φ / cos φ) * tδ)) ⟨abs_nonneg H, hH⟩ ⟨arccos_nonneg _, arccos_le_pi _⟩
    rw [hc] at this
    exact this.symm
  rw [h1, cos_abs]
  constructor
  · intro h
    have := mul_lt_mul_of_pos_left h hφ
    rw [show cos φ * (-(sin φ / cos φ) * tδ) = -(sin φ * tδ) by field_simp] at this
    linarith
  · intro h
    rw [show -(sin φ / cos φ) * tδ = -(sin φ * tδ) / cos φ by ring, lt_div_iff₀ hφ]
    linarith

theorem hourAngle_le {i : ℕ} (hi : i < 24) : |Sundial.hourAngle i| ≤ π := by
  have hp := pi_pos
  have : ((i : ℝ)) ≤ 24 := by exact_mod_cast hi.le
  have h0 : (0 : ℝ) ≤ i := by positivity
  unfold Sundial.hourAngle
  rw [abs_le]
  constructor <;> nlinarith

theorem lines_congr {f g : ℕ → ℝ → Option Sundial.Point} (h : ∀ i < 24, ∀ d ∈ Sundial.m, f i d = g i d) :
    Sundial.lines f = Sundial.lines g := by
  unfold Sundial.lines
  refine List.filterMap_congr fun i hi => ?_
  have : Sundial.m.filterMap (f i) = Sundial.m.filterMap (g i) :=
    List.filterMap_congr fun d hd => h i (List.mem_range.1 hi) d hd
  rw [this]

/-- C64: the general dial with zenithal distance 0 and declination 0 is the horizontal dial, between the polar circles. -/
theorem C64_horizontal (φ a : ℝ) (hφ : 0 < cos φ) (hs : sin φ ≠ 0) (hr : |sin φ / cos φ| * tan (23.44 * π / 180) ≤ 1) :
    simpleOf (Sundial.general φ 0 a 0) = Sundial.horizontal φ a := by
  have hp : Sundial.lines (Sundial.generalPoint φ 0 a 0) = Sundial.lines (Sundial.horizontalPoint φ a) := by
    refine lines_congr fun i hi d hd => ?_
    have hreg : |sin φ / cos φ * Sundial.tanδ d| ≤ 1 := by
      rw [abs_mul]
      exact (mul_le_mul_of_nonneg_left (tanδ_le hd) (abs_nonneg _)).trans hr
    unfold Sundial.generalPoint Sundial.horizontalPoint
    dsimp only
    rw [sin_zero, cos_zero]
    by_cases hdn : Sundial.down (sin φ / cos φ) (Sundial.hourAngle i) (Sundial.tanδ d)
    · rw [if_pos hdn, if_pos hdn]
    rw [if_neg hdn, if_neg hdn]
    rw [down_iff hφ hreg (hourAngle_le hi)] at hdn
    have eQ : 0 * 0 * sin (Sundial.hourAngle i) + (cos φ * 1 + sin φ * 0 * 1) * cos (Sundial.hourAngle i) +
        (sin φ * 1 - cos φ * 0 * 1) * Sundial.tanδ d = cos φ * cos (Sundial.hourAngle i) + sin φ * Sundial.tanδ d := by ring
    rw [eQ, if_neg hdn]
    congr 3
    · congr 1; ring
    · congr 1; ring
  unfold simpleOf Sundial.general Sundial.horizontal
  dsimp only
  rw [hp, sin_zero, cos_zero]
  have hc := hφ.ne'
  have e : sin φ * 1 - cos φ * 0 * 1 = sin φ := by ring
  rw [e]
  congr 1
  · ring
  · field_simp; ring

/-- A case of the hypotheses of `C64_horizontal`: latitude 45°. -/
example : 0 < cos (π / 4) ∧ sin (π / 4) ≠ 0 ∧ |sin (π / 4) / cos (π / 4)| * tan (23.44 * π / 180) ≤ 1 := by
  have hp := pi_pos
  have h2 : (0 : ℝ) < √2 / 2 := by positivity
  rw [cos_pi_div_four, sin_pi_div_four]
  refine ⟨h2, h2.ne', ?_⟩
  rw [div_self h2.ne', abs_one, one_mul, ← tan_pi_div_four]
  exact ((strictMonoOn_tan.le_iff_le (a := 23.44 * π / 180) (b := π / 4) ⟨by nlinarith, by nlinarith⟩ ⟨by linarith, by linarith⟩).2 (by nlinarith))

/-- Sine of the altitude of the Sun at hour angle H and declination d degrees. -/
noncomputable def sunAltSin (φ H d : ℝ) : ℝ := sin φ * sin (d * π / 180) + cos φ * cos (d * π / 180) * cos H

theorem cosδ_pos {d : ℝ} (hd : d ∈ Sundial.m) : 0 < cos (d * π / 180) := by
  have hp := pi_pos
  have hm : |d| ≤ 23.44 := by
    unfold Sundial.m at hd
    simp only [List.mem_cons, List.not_mem_nil, or_false] at hd
    rw [abs_le]
    rcases hd with rfl | rfl | rfl | rfl | rfl | rfl | rfl <;> norm_num
  obtain ⟨h1, h2⟩ := abs_le.1 hm
  exact cos_pos_of_mem_Ioo ⟨by nlinarith, by nlinarith⟩

theorem alt_eq {φ H d : ℝ} (hd : d ∈ Sundial.m) :
    sunAltSin φ H d = cos (d * π / 180) * (cos φ * cos H + sin φ * Sundial.tanδ d) := by
  have := (cosδ_pos hd).ne'
  unfold sunAltSin Sundial.tanδ
  rw [tan_eq_sin_div_cos]
  field_simp
  ring

/-- C65, largest part: if the Sun of the given declination rises or stays up (no polar night), no function plots a point for an
instant at which it is below the horizon.  Missing for the full property: the polar night. -/
theorem C65_up_partial (φ D a z : ℝ) (hφ : 0 < cos φ) (i : ℕ) (hi : i < 24) (d : ℝ) (hd : d ∈ Sundial.m)
    (hr : -1 ≤ sin φ / cos φ * Sundial.tanδ d) (hneg : sunAltSin φ (Sundial.hourAngle i) d < 0) :
    Sundial.generalPoint φ D a z i d = none ∧ Sundial.verticalPoint φ D a i d = none ∧
    Sundial.horizontalPoint φ a i d = none ∧ Sundial.equatorialPoint φ a i d = none := by
  rw [alt_eq hd] at hneg
  have hQ : cos φ * cos (Sundial.hourAngle i) + sin φ * Sundial.tanδ d < 0 := by
    by_contra hc
    push Not at hc
    nlinarith [mul_nonneg (cosδ_pos hd).le hc]
  have hup : sin φ / cos φ * Sundial.tanδ d ≤ 1 := by
    by_contra hc
    push Not at hc
    rw [div_mul_eq_mul_div, lt_div_iff₀ hφ] at hc
    nlinarith [neg_one_le_cos (Sundial.hourAngle i)]
  have hdn := (down_iff hφ (abs_le.2 ⟨hr, hup⟩) (hourAngle_le hi)).2 hQ
  unfold Sundial.generalPoint Sundial.verticalPoint Sundial.horizontalPoint Sundial.equatorialPoint
  dsimp only
  rw [tan_eq_sin_div_cos]
  exact ⟨if_pos hdn, if_pos hdn, if_pos hdn, if_pos hdn⟩

/-- C65: the general dial with horizontal plane is right also in the polar night. -/
theorem C65_general_horizontal_partial (φ a : ℝ) (i : ℕ) (d : ℝ) (hd : d ∈ Sundial.m)
    (hneg : sunAltSin φ (Sundial.hourAngle i) d < 0) : Sundial.generalPoint φ 0 a 0 i d = none := by
  rw [alt_eq hd] at hneg
  have hQ : cos φ * cos (Sundial.hourAngle i) + sin φ * Sundial.tanδ d < 0 := by
    by_contra hc
    push Not at hc
    nlinarith [mul_nonneg (cosδ_pos hd).le hc]
  unfold Sundial.generalPoint
  dsimp only
  rw [sin_zero, cos_zero]
  split_ifs with h1 h2
  · rfl
  · rfl
  · exact absurd (by linarith : _ < (0 : ℝ)) h2

/-- C65 is false: wherever there is a polar night, the horizontal dial has points for all 24 hours of it. -/
theorem C65_violation (φ a : ℝ) (hφ : 0 < cos φ) (h : 1 < sin φ / cos φ * tan (23.44 * π / 180)) (i : ℕ) :
    sunAltSin φ (Sundial.hourAngle i) (-23.44) < 0 ∧ ∃ p, Sundial.horizontalPoint φ a i (-23.44) = some p := by
  have hd : (-23.44 : ℝ) ∈ Sundial.m := by unfold Sundial.m; simp
  have ht : Sundial.tanδ (-23.44) = -tan (23.44 * π / 180) := by
    unfold Sundial.tanδ
    rw [← tan_neg]
    congr 1
    ring
  constructor
  · rw [alt_eq hd, ht]
    rw [div_mul_eq_mul_div, lt_div_iff₀ hφ] at h
    have : cos φ * cos (Sundial.hourAngle i) + sin φ * -tan (23.44 * π / 180) < 0 := by
      nlinarith [cos_le_one (Sundial.hourAngle i), mul_nonneg hφ.le (sub_nonneg.2 (cos_le_one (Sundial.hourAngle i)))]
    exact mul_neg_of_pos_of_neg (cosδ_pos hd) this
  · unfold Sundial.horizontalPoint
    dsimp only
    have hnd : ¬ Sundial.down (sin φ / cos φ) (Sundial.hourAngle i) (Sundial.tanδ (-23.44)) := by
      unfold Sundial.down EF.acos
      dsimp only
      rw [ht, if_pos (Or.inr (by linarith))]
      exact EF.nan_lt _
    rw [if_neg hnd]
    exact ⟨_, rfl⟩

/-- The hypothesis of `C65_violation` holds at latitude 80°. -/
example : 0 < cos (80 * π / 180) ∧ 1 < sin (80 * π / 180) / cos (80 * π / 180) * tan (23.44 * π / 180) := by
  have hp := pi_pos
  have hc : 0 < cos (80 * π / 180) := cos_pos_of_mem_Ioo ⟨by linarith, by linarith⟩
  refine ⟨hc, ?_⟩
  have hc2 : 0 < cos (23.44 * π / 180) := cos_pos_of_mem_Ioo ⟨by linarith, by linarith⟩
  rw [tan_eq_sin_div_cos, div_mul_div_comm, lt_div_iff₀ (mul_pos hc hc2)]
  have h := cos_neg_of_pi_div_two_lt_of_lt (x := 80 * π / 180 + 23.44 * π / 180) (by linarith) (by linarith)
  rw [cos_add] at h
  linarith

/-- C100 is false: the equatorial dial has points with infinite or undefined coordinates at every latitude: those of the equinox. -/
theorem C100_violation (φ a : ℝ) (ha : a ≠ 0) : ∃ p, Sundial.equatorialPoint φ a 12 0 = some (true, p) ∧
    p.X = EF.nan ∧ EF.NotFinite p.Y := by
  have ht : Sundial.tanδ 0 = 0 := by unfold Sundial.tanδ; simp
  have hH : Sundial.hourAngle 12 = 0 := by unfold Sundial.hourAngle; norm_num
  unfold Sundial.equatorialPoint
  dsimp only
  have hnd : ¬ Sundial.down (tan φ) (Sundial.hourAngle 12) (Sundial.tanδ 0) := by
    unfold Sundial.down EF.acos
    dsimp only
    rw [ht, hH, mul_zero]
    norm_num
    positivity
  rw [if_neg hnd, ht, if_neg (lt_irrefl _), hH]
  refine ⟨_, rfl, ?_, ?_⟩
  · dsimp only
    rw [sin_zero, mul_zero, EF.fin_div, if_pos rfl, if_pos rfl]
  · dsimp only
    rw [cos_zero, mul_one, EF.fin_div, if_pos rfl, if_neg ha]
    exact trivial

/-- C100, largest part: at the other declinations the points of the equatorial dial are finite.  Missing: the equinox. -/
theorem C100_finite_partial (φ a : ℝ) (i : ℕ) (d : ℝ) (hd : d ∈ Sundial.m) (hd0 : d ≠ 0) (b : Bool) (p : Sundial.Point)
    (h : Sundial.equatorialPoint φ a i d = some (b, p)) : ¬ EF.NotFinite p.X ∧ ¬ EF.NotFinite p.Y ∧ (b = true ↔ 0 < d) := by
  have hp := pi_pos
  have hm : |d| ≤ 23.44 := by
    unfold Sundial.m at hd
    simp only [List.mem_cons, List.not_mem_nil, or_false] at hd
    rw [abs_le]
    rcases hd with rfl | rfl | rfl | rfl | rfl | rfl | rfl <;> norm_num
  obtain ⟨h1, h2⟩ := abs_le.1 hm
  have hpos : 0 < Sundial.tanδ d ↔ 0 < d := by
    unfold Sundial.tanδ
    have := strictMonoOn_tan.lt_iff_lt (a := 0) (b := d * π / 180) ⟨by linarith, by linarith⟩ ⟨by nlinarith, by nlinarith⟩
    rw [tan_zero] at this
    rw [this]
    constructor
    · intro h
      by_contra hc
      push Not at hc
      nlinarith
    · intro h
      positivity
  have ht0 : Sundial.tanδ d ≠ 0 := by
    unfold Sundial.tanδ
    intro h0
    have := strictMonoOn_tan.injOn (x₁ := d * π / 180) (x₂ := 0) ⟨by nlinarith, by nlinarith⟩ ⟨by linarith, by linarith⟩
      (h0.trans tan_zero.symm)
    apply hd0
    have : d * π = 0 := by linarith
    rcases mul_eq_zero.1 this with h | h
    · exact h
    · linarith
  unfold Sundial.equatorialPoint at h
  dsimp only at h
  rw [EF.fin_div_ne ht0, EF.fin_div_ne ht0] at h
  split_ifs at h with h3 h4
  · cases h
    refine ⟨id, id, ?_⟩
    constructor
    · intro h; cases h
    · intro h
      have := hpos.2 h
      linarith
  · cases h
    refine ⟨id, id, ?_⟩
    simp only [true_iff]
    rw [← hpos]
    exact lt_of_le_of_ne (not_lt.1 h4) (Ne.symm ht0)

/-! C101: the geometry.  Local frame: south, west, zenith. -/

/-- Direction of a point of hour angle H with tangent of declination t, at latitude φ (not of unit length). -/
noncomputable def skyVec (φ H t : ℝ) : V3 := !₂[sin φ * cos H - cos φ * t, sin H, cos φ * cos H + sin φ * t]

/-- Direction of the pole. -/
noncomputable def poleVec (φ : ℝ) : V3 := !₂[-cos φ, 0, sin φ]

/-- The stylus direction: azimuth D from the south towards the west, zenithal distance z; and the axes x and y of the plane. -/
noncomputable def stylus (D z : ℝ) : V3 := !₂[sin z * cos D, sin z * sin D, cos z]
noncomputable def axisX (D : ℝ) : V3 := !₂[sin D, -cos D, 0]
noncomputable def axisY (D z : ℝ) : V3 := !₂[-cos z * cos D, -cos z * sin D, sin z]

/-- C101: every point plotted is the shadow of the tip of the stylus: the line from the Sun through the tip `a • stylus` meets the plane
through the foot perpendicular to the stylus at X • axisX + Y • axisY.  The Sun is on the upper side of the plane. -/
theorem C101_shadow (φ D a z : ℝ) (i : ℕ) (d : ℝ) (p : Sundial.Point) (h : Sundial.generalPoint φ D a z i d = some p)
    (hQ : inner ℝ (skyVec φ (Sundial.hourAngle i) (Sundial.tanδ d)) (stylus D z) ≠ 0) :
    0 < inner ℝ (skyVec φ (Sundial.hourAngle i) (Sundial.tanδ d)) (stylus D z) ∧
    ∃ X Y t : ℝ, p = ⟨EF.fin X, EF.fin Y⟩ ∧
      X • axisX D + Y • axisY D z = a • stylus D z - t • skyVec φ (Sundial.hourAngle i) (Sundial.tanδ d) := by
  set H := Sundial.hourAngle i with hH
  set t := Sundial.tanδ d with ht
  have hin : inner ℝ (skyVec φ H t) (stylus D z) =
      sin D * sin z * sin H + (cos φ * cos z + sin φ * sin z * cos D) * cos H + (sin φ * cos z - cos φ * sin z * cos D) * t := by
    unfold skyVec stylus
    rw [inner_vec]
    ring
  rw [hin] at hQ ⊢
  unfold Sundial.generalPoint at h
  dsimp only at h
  rw [← hH, ← ht] at h
  set Q := sin D * sin z * sin H + (cos φ * cos z + sin φ * sin z * cos D) * cos H + (sin φ * cos z - cos φ * sin z * cos D) * t with hQd
  by_cases h1 : Sundial.down (sin φ / cos φ) H t
  · rw [if_pos h1] at h; cases h
  rw [if_neg h1] at h
  by_cases h2 : Q < 0
  · rw [if_pos h2] at h; cases h
  rw [if_neg h2, EF.fin_div_ne hQ, EF.fin_div_ne hQ] at h
  refine ⟨lt_of_le_of_ne (not_lt.1 h2) (Ne.symm hQ), _, _, a / Q, (Option.some.inj h).symm, ?_⟩
  have e1 := sin_sq_add_cos_sq D
  have e2 := sin_sq_add_cos_sq z
  have hQ2 : Q / Q = 1 := div_self hQ
  unfold axisX axisY stylus skyVec
  clear_value H t
  clear h h1 h2
  ext k
  fin_cases k
  · simp
    field_simp
    rw [hQd]
    clear * - e1 e2
    grind
  · simp
    field_simp
    rw [hQd]
    clear * - e1 e2
    grind
  · simp
    field_simp
    rw [hQd]
    clear * - e1 e2
    grind

/-- C101: the centre is the shadow of the tip for light along the axis of the sky; u is its distance from the tip, and ψ the angle of
the line with the plane. -/
theorem C101_center (φ D a z : ℝ) (ha : 0 < a) (hP : inner ℝ (poleVec φ) (stylus D z) ≠ 0) :
    ∃ t : ℝ, (Sundial.general φ D a z).centerX • axisX D + (Sundial.general φ D a z).centerY • axisY D z =
        a • stylus D z - t • poleVec φ ∧ (Sundial.general φ D a z).u = ‖t • poleVec φ‖ ∧
      sin (Sundial.general φ D a z).ψ = |inner ℝ (poleVec φ) (stylus D z)| := by
  have hin : inner ℝ (poleVec φ) (stylus D z) = sin φ * cos z - cos φ * sin z * cos D := by
    unfold poleVec stylus
    rw [inner_vec]
    ring
  have np : ‖poleVec φ‖ = 1 := by
    unfold poleVec
    rw [EuclideanSpace.norm_eq]
    simp [Fin.sum_univ_three, cos_sq_add_sin_sq]
  have ns : ‖stylus D z‖ = 1 := by
    unfold stylus
    rw [EuclideanSpace.norm_eq]
    simp [Fin.sum_univ_three]
    have e1 := sin_sq_add_cos_sq D
    have e2 := sin_sq_add_cos_sq z
    clear * - e1 e2; grind
  have hb : |inner ℝ (poleVec φ) (stylus D z)| ≤ 1 := by
    have := abs_real_inner_le_norm (poleVec φ) (stylus D z)
    rwa [np, ns, mul_one] at this
  rw [hin] at hP hb ⊢
  unfold Sundial.general
  dsimp only
  set P := sin φ * cos z - cos φ * sin z * cos D with hPd
  refine ⟨a / P, ?_, ?_, sin_arcsin (by linarith [abs_nonneg P]) hb⟩
  · have e1 := sin_sq_add_cos_sq D
    have e2 := sin_sq_add_cos_sq z
    unfold axisX axisY stylus poleVec
    ext k
    fin_cases k
    · simp
      field_simp
      rw [hPd]
      clear * - e1 e2
      grind
    · simp
      field_simp
      rw [hPd]
      clear * - e1 e2
      grind
    · simp
      field_simp
      rw [hPd]
      clear * - e1 e2
      grind
  · rw [norm_smul, np, mul_one, Real.norm_eq_abs, abs_div, abs_of_pos ha]

end Verif.Props
