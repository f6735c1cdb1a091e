import Verif.Lemmas.Sphere
import Verif.Model.Coord
import Mathlib.Analysis.Real.Pi.Bounds

/-! Properties C46–C48: conversions between celestial coordinate frames. -/

namespace Verif.Props

open Real Verif.Spec Verif.Go Verif.Model.Coord Verif.Lemmas

/-- C46.  Ecliptic coordinates: the direction in the frame turned about the equinox by the obliquity. -/
theorem C46_eqToEcl_rotation (α δ s c : ℝ) (hε : s ^ 2 + c ^ 2 = 1) (hδ : 0 < cos δ) :
    dir (EqToEcl α δ s c).1 (EqToEcl α δ s c).2 =
      !₂[cos δ * cos α, c * (cos δ * sin α) + s * sin δ, -s * (cos δ * sin α) + c * sin δ] := by
  have h := dir_scaled (x := cos δ * cos α) (y := c * (cos δ * sin α) + s * sin δ) (z := -s * (cos δ * sin α) + c * sin δ) hδ (by
    have e1 := sin_sq_add_cos_sq α
    have e2 := sin_sq_add_cos_sq δ
    linear_combination (cos δ ^ 2 * sin α ^ 2 + sin δ ^ 2) * hε + cos δ ^ 2 * e1 + e2)
  rw [← h]
  have e1 : (c * (cos δ * sin α) + s * sin δ) / cos δ = sin α * c + sin δ / cos δ * s := by field_simp
  have e2 : cos δ * cos α / cos δ = cos α := by field_simp
  have e3 : -s * (cos δ * sin α) + c * sin δ = sin δ * c - cos δ * s * sin α := by ring
  rw [e1, e2, e3]
  rfl

/-- C46.  Equatorial coordinates: the inverse rotation. -/
theorem C46_eclToEq_rotation (l β s c : ℝ) (hε : s ^ 2 + c ^ 2 = 1) (hβ : 0 < cos β) :
    dir (EclToEq l β s c).1 (EclToEq l β s c).2 =
      !₂[cos β * cos l, c * (cos β * sin l) - s * sin β, s * (cos β * sin l) + c * sin β] := by
  have h := dir_scaled (x := cos β * cos l) (y := c * (cos β * sin l) - s * sin β) (z := s * (cos β * sin l) + c * sin β) hβ (by
    have e1 := sin_sq_add_cos_sq l
    have e2 := sin_sq_add_cos_sq β
    linear_combination (cos β ^ 2 * sin l ^ 2 + sin β ^ 2) * hε + cos β ^ 2 * e1 + e2)
  rw [← h]
  unfold EclToEq
  dsimp only
  have e1 : (c * (cos β * sin l) - s * sin β) / cos β = sin l * c - sin β / cos β * s := by field_simp
  have e2 : cos β * cos l / cos β = cos l := by field_simp
  have e3 : s * (cos β * sin l) + c * sin β = sin β * c + cos β * s * sin l := by ring
  rw [dir_mod1, e1, e2, e3]

theorem cos_pos_of_abs_lt {d : ℝ} (h : |d| < π / 2) : 0 < cos d := cos_pos_of_mem_Ioo (abs_lt.1 h)

theorem sep_of_inner {r1 d1 r2 d2 r3 d3 r4 d4 : ℝ} (h : inner ℝ (dir r1 d1) (dir r2 d2) = inner ℝ (dir r3 d3) (dir r4 d4)) :
    sep r1 d1 r2 d2 = sep r3 d3 r4 d4 := by
  rw [sep_eq, sep_eq, ← inner_dir, ← inner_dir, h]

/-- C46.  To the ecliptic and back: every direction except the poles of the two frames is returned, with
the right ascension in [0, 2π). -/
theorem C46_roundtrip_eq (α δ s c : ℝ) (hε : s ^ 2 + c ^ 2 = 1) (hδ : |δ| < π / 2) (hα0 : 0 ≤ α) (hα1 : α < 2 * π)
    (hpole : |(EqToEcl α δ s c).2| < π / 2) :
    EclToEq (EqToEcl α δ s c).1 (EqToEcl α δ s c).2 s c = (α, δ) := by
  have h1 := C46_eqToEcl_rotation α δ s c hε (cos_pos_of_abs_lt hδ)
  obtain ⟨x1, x2, x3⟩ := vec_inj h1
  set l := (EqToEcl α δ s c).1
  set β := (EqToEcl α δ s c).2
  have h2 := C46_eclToEq_rotation l β s c hε (cos_pos_of_abs_lt hpole)
  rw [x1, x2, x3] at h2
  have h3 : dir α δ = dir (EclToEq l β s c).1 (EclToEq l β s c).2 := by
    rw [h2]
    unfold dir
    apply vec_eq rfl
    · linear_combination -(cos δ * sin α) * hε
    · linear_combination -sin δ * hε
  obtain ⟨e1, e2⟩ := dir_inj hδ (abs_arcsin_le _) h3
  rw [mod1_of_mem hα0 hα1] at e2
  have hm := mod1_eq (atan2 (sin l * c - sin β / cos β * s) (cos l))
  refine Prod.ext ?_ e1.symm
  rw [e2]
  exact (mod1_of_mem hm.1 hm.2.1).symm

/-- C46.  From the ecliptic and back. -/
theorem C46_roundtrip_ecl (l β s c : ℝ) (hε : s ^ 2 + c ^ 2 = 1) (hβ : |β| < π / 2) (hl0 : -π < l) (hl1 : l ≤ π)
    (hpole : |(EclToEq l β s c).2| < π / 2) :
    EqToEcl (EclToEq l β s c).1 (EclToEq l β s c).2 s c = (l, β) := by
  have h1 := C46_eclToEq_rotation l β s c hε (cos_pos_of_abs_lt hβ)
  obtain ⟨x1, x2, x3⟩ := vec_inj h1
  set α := (EclToEq l β s c).1
  set δ := (EclToEq l β s c).2
  have h2 := C46_eqToEcl_rotation α δ s c hε (cos_pos_of_abs_lt hpole)
  rw [x1, x2, x3] at h2
  have h3 : dir l β = dir (EqToEcl α δ s c).1 (EqToEcl α δ s c).2 := by
    rw [h2]
    unfold dir
    apply vec_eq rfl
    · linear_combination -(cos β * sin l) * hε
    · linear_combination -sin β * hε
  obtain ⟨e1, e2⟩ := dir_inj hβ (abs_arcsin_le _) h3
  refine Prod.ext ?_ e1.symm
  obtain ⟨-, -, k1, hk1⟩ := mod1_eq l
  obtain ⟨-, -, k2, hk2⟩ := mod1_eq (EqToEcl α δ s c).1
  obtain ⟨r0, r1⟩ := atan2_range (sin α * c + sin δ / cos δ * s) (cos α)
  change -π < (EqToEcl α δ s c).1 at r0
  change (EqToEcl α δ s c).1 ≤ π at r1
  -- both are in (-π, π] and congruent
  have hd : (EqToEcl α δ s c).1 - l = ((k2 - k1 : ℤ) : ℝ) * (2 * π) := by push_cast; linarith
  have hπ := pi_pos
  have hk : k2 - k1 = 0 := by
    have u1 : ((k2 - k1 : ℤ) : ℝ) < 1 := by
      by_contra hge; push Not at hge; nlinarith
    have u2 : (-1 : ℝ) < ((k2 - k1 : ℤ) : ℝ) := by
      by_contra hge; push Not at hge; nlinarith
    have v1 : k2 - k1 < 1 := by exact_mod_cast u1
    have v2 : -1 < k2 - k1 := by exact_mod_cast u2
    omega
  rw [hk] at hd
  simp at hd
  linarith

/-- C46.  Both conversions preserve the angular separation of any two directions off the poles. -/
theorem C46_separation (α δ α' δ' s c : ℝ) (hε : s ^ 2 + c ^ 2 = 1) (hδ : |δ| < π / 2) (hδ' : |δ'| < π / 2) :
    sep (EqToEcl α δ s c).1 (EqToEcl α δ s c).2 (EqToEcl α' δ' s c).1 (EqToEcl α' δ' s c).2 = sep α δ α' δ' ∧
    sep (EclToEq α δ s c).1 (EclToEq α δ s c).2 (EclToEq α' δ' s c).1 (EclToEq α' δ' s c).2 = sep α δ α' δ' := by
  constructor <;> apply sep_of_inner
  · rw [C46_eqToEcl_rotation _ _ s c hε (cos_pos_of_abs_lt hδ), C46_eqToEcl_rotation _ _ s c hε (cos_pos_of_abs_lt hδ'), inner_vec]
    unfold dir; rw [inner_vec]
    linear_combination (cos δ * sin α * (cos δ' * sin α') + sin δ * sin δ') * hε
  · rw [C46_eclToEq_rotation _ _ s c hε (cos_pos_of_abs_lt hδ), C46_eclToEq_rotation _ _ s c hε (cos_pos_of_abs_lt hδ'), inner_vec]
    unfold dir; rw [inner_vec]
    linear_combination (cos δ * sin α * (cos δ' * sin α') + sin δ * sin δ') * hε

example : EclToEq (EqToEcl 1 0 (sin 0.4) (cos 0.4)).1 (EqToEcl 1 0 (sin 0.4) (cos 0.4)).2 (sin 0.4) (cos 0.4) = (1, 0) := by
  have hπ := pi_gt_three
  refine C46_roundtrip_eq 1 0 _ _ (sin_sq_add_cos_sq _) (by simp; linarith) (by norm_num) (by linarith) ?_
  unfold EqToEcl
  simp only [sin_zero, cos_zero, zero_mul, one_mul, zero_sub]
  have h1 : sin (0.4 : ℝ) < 0.4 := sin_lt (by norm_num)
  have h2 : 0 < sin (0.4 : ℝ) := sin_pos_of_pos_of_lt_pi (by norm_num) (by linarith)
  have h3 := sin_le_one 1
  have h4 : 0 < sin (1 : ℝ) := sin_pos_of_pos_of_lt_pi (by norm_num) (by linarith)
  rw [arcsin_neg, abs_neg, abs_lt]
  exact ⟨by linarith [arcsin_nonneg.2 (mul_pos h2 h4).le], arcsin_lt_pi_div_two.2 (by nlinarith)⟩

/-- C47.  Horizontal coordinates: the components of the direction of the star along the zenith, the south point and the west
point of the observer.  At sidereal time st on (west) longitude ψ the zenith has right ascension st - ψ and declination φ. -/
theorem C47_eqToHz (α δ φ ψ st : ℝ) (hδ : |δ| < π / 2) :
    sin (EqToHz α δ φ ψ st).2 = inner ℝ (dir α δ) (dir (st - ψ) φ) ∧
    cos (EqToHz α δ φ ψ st).2 * cos (EqToHz α δ φ ψ st).1 = inner ℝ (dir α δ) (dir (st - ψ) (φ - π / 2)) ∧
    cos (EqToHz α δ φ ψ st).2 * sin (EqToHz α δ φ ψ st).1 = inner ℝ (dir α δ) (dir (st - ψ - π / 2) 0) := by
  obtain ⟨h1, h2, h3⟩ := polar_scaled (x := sin φ * (cos δ * cos (st - ψ - α)) - cos φ * sin δ) (y := cos δ * sin (st - ψ - α))
    (z := sin φ * sin δ + cos φ * cos δ * cos (st - ψ - α)) (cos_pos_of_abs_lt hδ) (by
    have e1 := sin_sq_add_cos_sq (st - ψ - α)
    have e2 := sin_sq_add_cos_sq δ
    have e3 := sin_sq_add_cos_sq φ
    linear_combination (cos δ ^ 2 * cos (st - ψ - α) ^ 2 + sin δ ^ 2) * e3 + cos δ ^ 2 * e1 + e2)
  have hc := cos_pos_of_abs_lt hδ
  have e1 : (sin φ * (cos δ * cos (st - ψ - α)) - cos φ * sin δ) / cos δ = cos (st - ψ - α) * sin φ - sin δ / cos δ * cos φ := by
    field_simp
  have e2 : cos δ * sin (st - ψ - α) / cos δ = sin (st - ψ - α) := by field_simp
  rw [e1, e2] at h1 h2
  refine ⟨?_, ?_, ?_⟩
  · rw [inner_dir, ← neg_sub (st - ψ) α, cos_neg]
    refine h3.trans ?_; ring
  · rw [inner_dir, ← neg_sub (st - ψ) α, cos_neg, sin_sub_pi_div_two, cos_sub_pi_div_two]
    refine h1.trans ?_; ring
  · rw [inner_dir, sin_zero, cos_zero, show α - (st - ψ - π / 2) = π / 2 - (st - ψ - α) by ring, cos_pi_div_two_sub]
    refine h2.trans ?_; ring

/-- C47.  Back from horizontal coordinates: the declination and local hour angle components. -/
theorem hzToEq_vec (A h φ ψ st : ℝ) (hh : |h| < π / 2) :
    dir (HzToEq A h φ ψ st).1 (HzToEq A h φ ψ st).2 =
      !₂[cos (st - ψ) * (sin φ * (cos h * cos A) + cos φ * sin h) + sin (st - ψ) * (cos h * sin A),
         sin (st - ψ) * (sin φ * (cos h * cos A) + cos φ * sin h) - cos (st - ψ) * (cos h * sin A),
         sin φ * sin h - cos φ * (cos h * cos A)] := by
  obtain ⟨h1, h2, h3⟩ := polar_scaled (x := sin φ * (cos h * cos A) + cos φ * sin h) (y := cos h * sin A)
    (z := sin φ * sin h - cos φ * (cos h * cos A)) (cos_pos_of_abs_lt hh) (by
    have e1 := sin_sq_add_cos_sq A
    have e2 := sin_sq_add_cos_sq h
    have e3 := sin_sq_add_cos_sq φ
    linear_combination (cos h ^ 2 * cos A ^ 2 + sin h ^ 2) * e3 + cos h ^ 2 * e1 + e2)
  have hc := cos_pos_of_abs_lt hh
  have e1 : (sin φ * (cos h * cos A) + cos φ * sin h) / cos h = cos A * sin φ + sin h / cos h * cos φ := by
    field_simp
  have e2 : cos h * sin A / cos h = sin A := by field_simp
  rw [e1, e2] at h1 h2
  unfold HzToEq
  dsimp only
  rw [dir_mod1, show sin φ * sin h - cos φ * cos h * cos A = sin φ * sin h - cos φ * (cos h * cos A) by ring]
  unfold dir
  apply vec_eq _ _ h3
  · rw [cos_sub (st - ψ)]
    linear_combination cos (st - ψ) * h1 + sin (st - ψ) * h2
  · rw [sin_sub (st - ψ)]
    linear_combination sin (st - ψ) * h1 - cos (st - ψ) * h2

/-- C47.  To horizontal coordinates and back, at the same place and time. -/
theorem C47_roundtrip (α δ φ ψ st : ℝ) (hδ : |δ| < π / 2) (hα0 : 0 ≤ α) (hα1 : α < 2 * π)
    (hpole : |(EqToHz α δ φ ψ st).2| < π / 2) :
    HzToEq (EqToHz α δ φ ψ st).1 (EqToHz α δ φ ψ st).2 φ ψ st = (α, δ) := by
  obtain ⟨x3, x1, x2⟩ := C47_eqToHz α δ φ ψ st hδ
  set A := (EqToHz α δ φ ψ st).1
  set h := (EqToHz α δ φ ψ st).2
  have h2 := hzToEq_vec A h φ ψ st hpole
  rw [x1, x2, x3, inner_dir, inner_dir, inner_dir, sin_zero, cos_zero, show α - (st - ψ - π / 2) = π / 2 + (α - (st - ψ)) by ring,
    sin_sub_pi_div_two, cos_sub_pi_div_two, cos_add, cos_pi_div_two, sin_pi_div_two, cos_sub α, sin_sub α] at h2
  generalize st - ψ = θ at *
  have h3 : dir α δ = dir (HzToEq A h φ ψ st).1 (HzToEq A h φ ψ st).2 := by
    rw [h2]
    have e1 := sin_sq_add_cos_sq θ
    have e3 := sin_sq_add_cos_sq φ
    unfold dir
    apply vec_eq
    · linear_combination -(cos θ * cos δ * (cos α * cos θ + sin α * sin θ)) * e3 - cos δ * cos α * e1
    · linear_combination -(sin θ * cos δ * (cos α * cos θ + sin α * sin θ)) * e3 - cos δ * sin α * e1
    · linear_combination -sin δ * e3
  obtain ⟨e1, e2⟩ := dir_inj hδ (abs_arcsin_le _) h3
  rw [mod1_of_mem hα0 hα1] at e2
  have hm : ∀ x, mod1 (mod1 x) = mod1 x := fun x => mod1_of_mem (mod1_eq x).1 (mod1_eq x).2.1
  refine Prod.ext ?_ e1.symm
  rw [e2]
  exact (hm _).symm

/-- C47.  A star at hour angle zero and south of the zenith is due south; here declination 0 seen from latitude 1 rad. -/
example : cos (EqToHz 0 0 1 0 0).2 * sin (EqToHz 0 0 1 0 0).1 = 0 := by
  rw [(C47_eqToHz 0 0 1 0 0 (by simp; linarith [pi_gt_three])).2.2, inner_dir]; simp

/-- C48.  Galactic coordinates: components along the north galactic pole, along the ascending node of the galactic
equator on the equator of 1950 (galactic longitude 33°) and along the direction 90° further. -/
theorem C48_eqToGal (α δ : ℝ) (hδ : |δ| < π / 2) :
    sin (EqToGal α δ).2 = inner ℝ (dir α δ) (dir galRA galDec) ∧
    cos (EqToGal α δ).2 * cos ((EqToGal α δ).1 - gal0Lon) = inner ℝ (dir α δ) (dir (galRA + π / 2) 0) ∧
    cos (EqToGal α δ).2 * sin ((EqToGal α δ).1 - gal0Lon) = inner ℝ (dir α δ) (dir (galRA + π) (π / 2 - galDec)) ∧
    0 ≤ (EqToGal α δ).1 ∧ (EqToGal α δ).1 < 2 * π := by
  obtain ⟨h1, h2, h3⟩ := polar_scaled (x := sin galDec * (cos δ * cos (galRA - α)) - cos galDec * sin δ) (y := cos δ * sin (galRA - α))
    (z := sin δ * sin galDec + cos δ * cos galDec * cos (galRA - α)) (cos_pos_of_abs_lt hδ) (by
    have e1 := sin_sq_add_cos_sq (galRA - α)
    have e2 := sin_sq_add_cos_sq δ
    have e3 := sin_sq_add_cos_sq galDec
    linear_combination (cos δ ^ 2 * cos (galRA - α) ^ 2 + sin δ ^ 2) * e3 + cos δ ^ 2 * e1 + e2)
  have hc := cos_pos_of_abs_lt hδ
  have e1 : (sin galDec * (cos δ * cos (galRA - α)) - cos galDec * sin δ) / cos δ = cos (galRA - α) * sin galDec - sin δ / cos δ * cos galDec := by
    field_simp
  have e2 : cos δ * sin (galRA - α) / cos δ = sin (galRA - α) := by field_simp
  rw [e1, e2] at h1 h2
  unfold EqToGal
  dsimp only
  set x := atan2 (sin (galRA - α)) (cos (galRA - α) * sin galDec - sin δ / cos δ * cos galDec)
  obtain ⟨m0, m1, k, hk⟩ := mod1_eq (gal0Lon + 1.5 * π - x)
  have hl : mod1 (gal0Lon + 1.5 * π - x) - gal0Lon = -(π / 2 + x) + ((-k + 1 : ℤ) : ℝ) * (2 * π) := by push_cast; linarith
  refine ⟨?_, ?_, ?_, m0, m1⟩
  · rw [inner_dir, ← neg_sub galRA α, cos_neg]
    refine h3.trans ?_; ring
  · rw [inner_dir, hl, cos_add_int_mul_two_pi, cos_neg, add_comm (π / 2) x, cos_add_pi_div_two, mul_neg, h2, sin_zero, cos_zero,
      show α - (galRA + π / 2) = -(galRA - α) - π / 2 by ring, cos_sub_pi_div_two, sin_neg]; ring
  · rw [inner_dir, hl, sin_add_int_mul_two_pi, sin_neg, add_comm (π / 2) x, sin_add_pi_div_two, mul_neg, h1, sin_pi_div_two_sub, cos_pi_div_two_sub,
      show α - (galRA + π) = -(galRA - α) - π by ring, cos_sub_pi, cos_neg]; ring

/-- C48.  Back from galactic coordinates, the vector in the equatorial frame: the combination of the same three directions. -/
theorem C48_galToEq (l b : ℝ) (hb : |b| < π / 2) :
    dir (GalToEq l b).1 (GalToEq l b).2 =
      sin b • dir galRA galDec + (cos b * cos (l - gal0Lon)) • dir (galRA + π / 2) 0 +
        (cos b * sin (l - gal0Lon)) • dir (galRA + π) (π / 2 - galDec) := by
  obtain ⟨h1, h2, h3⟩ := polar_scaled (x := sin galDec * (cos b * cos (l - gal0Lon - π / 2)) - cos galDec * sin b)
    (y := cos b * sin (l - gal0Lon - π / 2))
    (z := sin b * sin galDec + cos b * cos galDec * cos (l - gal0Lon - π / 2)) (cos_pos_of_abs_lt hb) (by
    have e1 := sin_sq_add_cos_sq (l - gal0Lon - π / 2)
    have e2 := sin_sq_add_cos_sq b
    have e3 := sin_sq_add_cos_sq galDec
    linear_combination (cos b ^ 2 * cos (l - gal0Lon - π / 2) ^ 2 + sin b ^ 2) * e3 + cos b ^ 2 * e1 + e2)
  have hc := cos_pos_of_abs_lt hb
  have e1 : (sin galDec * (cos b * cos (l - gal0Lon - π / 2)) - cos galDec * sin b) / cos b =
      cos (l - gal0Lon - π / 2) * sin galDec - sin b / cos b * cos galDec := by field_simp
  have e2 : cos b * sin (l - gal0Lon - π / 2) / cos b = sin (l - gal0Lon - π / 2) := by field_simp
  rw [e1, e2] at h1 h2
  unfold GalToEq
  dsimp only
  rw [dir_mod1]
  set y := atan2 (sin (l - gal0Lon - π / 2)) (cos (l - gal0Lon - π / 2) * sin galDec - sin b / cos b * cos galDec)
  clear_value y
  have ec : cos (y + galRA - π) = -(cos y * cos galRA - sin y * sin galRA) := by rw [cos_sub_pi, cos_add]
  have es : sin (y + galRA - π) = -(sin y * cos galRA + cos y * sin galRA) := by rw [sin_sub_pi, sin_add]
  unfold dir
  rw [ec, es, vec_comb, cos_add_pi_div_two, sin_add_pi_div_two, cos_add_pi, sin_add_pi, sin_pi_div_two_sub, cos_pi_div_two_sub, sin_zero,
    cos_zero]
  rw [cos_sub_pi_div_two] at *
  rw [sin_sub_pi_div_two] at h2
  apply vec_eq
  · linear_combination -cos galRA * h1 + sin galRA * h2
  · linear_combination -sin galRA * h1 - cos galRA * h2
  · rw [h3]; ring

/-- C48.  To galactic coordinates and back. -/
theorem C48_roundtrip_eq (α δ : ℝ) (hδ : |δ| < π / 2) (hα0 : 0 ≤ α) (hα1 : α < 2 * π) (hpole : |(EqToGal α δ).2| < π / 2) :
    GalToEq (EqToGal α δ).1 (EqToGal α δ).2 = (α, δ) := by
  obtain ⟨x3, x1, x2, -, -⟩ := C48_eqToGal α δ hδ
  set l := (EqToGal α δ).1
  set b := (EqToGal α δ).2
  have h2 := C48_galToEq l b hpole
  rw [x1, x2, x3, inner_dir, inner_dir, inner_dir, sin_zero, cos_zero, show α - (galRA + π / 2) = (α - galRA) - π / 2 by ring,
    show α - (galRA + π) = (α - galRA) - π by ring, cos_sub_pi_div_two, cos_sub_pi, sin_pi_div_two_sub, cos_pi_div_two_sub,
    cos_sub α, sin_sub α] at h2
  have h3 : dir α δ = dir (GalToEq l b).1 (GalToEq l b).2 := by
    rw [h2]
    have e1 := sin_sq_add_cos_sq galRA
    have e3 := sin_sq_add_cos_sq galDec
    unfold dir
    rw [vec_comb, cos_add_pi_div_two, sin_add_pi_div_two, cos_add_pi, sin_add_pi, sin_pi_div_two_sub, cos_pi_div_two_sub, sin_zero, cos_zero]
    generalize galRA = g at *
    generalize galDec = d at *
    apply vec_eq
    · linear_combination -(cos g * cos δ * (cos α * cos g + sin α * sin g)) * e3 - cos δ * cos α * e1
    · linear_combination -(sin g * cos δ * (cos α * cos g + sin α * sin g)) * e3 - cos δ * sin α * e1
    · linear_combination -sin δ * e3
  obtain ⟨e1, e2⟩ := dir_inj hδ (abs_arcsin_le _) h3
  rw [mod1_of_mem hα0 hα1] at e2
  have hm : ∀ x, mod1 (mod1 x) = mod1 x := fun x => mod1_of_mem (mod1_eq x).1 (mod1_eq x).2.1
  refine Prod.ext ?_ e1.symm
  rw [e2]
  exact (hm _).symm

/-- C48.  From galactic coordinates and back. -/
theorem C48_roundtrip_gal (l b : ℝ) (hb : |b| < π / 2) (hl0 : 0 ≤ l) (hl1 : l < 2 * π) (hpole : |(GalToEq l b).2| < π / 2) :
    EqToGal (GalToEq l b).1 (GalToEq l b).2 = (l, b) := by
  obtain ⟨x3, x1, x2, m0, m1⟩ := C48_eqToGal (GalToEq l b).1 (GalToEq l b).2 hpole
  have h2 := C48_galToEq l b hb
  rw [h2] at x1 x2 x3
  have hb' : |(EqToGal (GalToEq l b).1 (GalToEq l b).2).2| ≤ π / 2 := abs_arcsin_le _
  set l' := (EqToGal (GalToEq l b).1 (GalToEq l b).2).1 with hl'
  set b' := (EqToGal (GalToEq l b).1 (GalToEq l b).2).2 with hb'd
  have o1 : ∀ g d : ℝ, inner ℝ (dir g d) (dir g d) = 1 := fun g d => by
    rw [inner_dir, sub_self, cos_zero]; linarith [sin_sq_add_cos_sq d]
  have o2 : inner ℝ (dir (galRA + π / 2) 0) (dir galRA galDec) = 0 := by
    rw [inner_dir, add_sub_cancel_left, cos_pi_div_two]; simp
  have o3 : inner ℝ (dir (galRA + π) (π / 2 - galDec)) (dir galRA galDec) = 0 := by
    rw [inner_dir, add_sub_cancel_left, cos_pi, sin_pi_div_two_sub, cos_pi_div_two_sub]; ring
  have o4 : inner ℝ (dir (galRA + π) (π / 2 - galDec)) (dir (galRA + π / 2) 0) = 0 := by
    rw [inner_dir, show galRA + π - (galRA + π / 2) = π / 2 by ring, cos_pi_div_two]; simp
  have o2' : inner ℝ (dir galRA galDec) (dir (galRA + π / 2) 0) = 0 := by rw [real_inner_comm]; exact o2
  have o3' : inner ℝ (dir galRA galDec) (dir (galRA + π) (π / 2 - galDec)) = 0 := by rw [real_inner_comm]; exact o3
  have o4' : inner ℝ (dir (galRA + π / 2) 0) (dir (galRA + π) (π / 2 - galDec)) = 0 := by rw [real_inner_comm]; exact o4
  rw [inner_add_left, inner_add_left, real_inner_smul_left, real_inner_smul_left, real_inner_smul_left] at x1 x2 x3
  rw [o1, o2, o3] at x3
  rw [o1, o2', o4] at x1
  rw [o1, o3', o4'] at x2
  have h3 : dir (l - gal0Lon) b = dir (l' - gal0Lon) b' := by
    unfold dir
    apply vec_eq <;> linarith
  obtain ⟨e1, e2⟩ := dir_inj hb hb' h3
  refine Prod.ext ?_ e1.symm
  obtain ⟨-, -, k1, hk1⟩ := mod1_eq (l - gal0Lon)
  obtain ⟨-, -, k2, hk2⟩ := mod1_eq (l' - gal0Lon)
  have e3 : mod1 l = mod1 l' := mod1_congr ⟨k1 - k2, by push_cast; linarith⟩
  rw [mod1_of_mem hl0 hl1, mod1_of_mem m0 m1] at e3
  exact e3.symm

/-- C48.  The north galactic pole has galactic latitude 90°. -/
theorem C48_pole : (EqToGal galRA galDec).2 = π / 2 := by
  unfold EqToGal
  dsimp only
  rw [sub_self, cos_zero, show sin galDec * sin galDec + cos galDec * cos galDec * 1 = 1 by linarith [sin_sq_add_cos_sq galDec], arcsin_one]

/-- Galactic centre of 1950: l = 0, b = 0 is off the equatorial poles, so the roundtrip applies. -/
example : EqToGal (GalToEq 0 0).1 (GalToEq 0 0).2 = (0, 0) := by
  have hπ := pi_gt_three
  refine C48_roundtrip_gal 0 0 (by simp; linarith) le_rfl (by linarith) ?_
  unfold GalToEq
  dsimp only
  rw [sin_zero, cos_zero, zero_mul, zero_add, one_mul, abs_lt]
  have h1 := cos_le_one galDec
  have h2 : 0 < cos galDec := cos_pos_of_mem_Ioo ⟨by unfold galDec; norm_num; linarith, by unfold galDec; norm_num; linarith⟩
  have h3 : |cos (0 - gal0Lon - π / 2)| < 1 := by
    rw [cos_sub_pi_div_two, zero_sub, sin_neg, abs_neg]
    have : 0 < cos gal0Lon := cos_pos_of_mem_Ioo ⟨by unfold gal0Lon; linarith, by unfold gal0Lon; linarith⟩
    have h4 := sin_sq_add_cos_sq gal0Lon
    rw [abs_lt]; constructor <;> nlinarith
  rw [abs_lt] at h3
  constructor
  · rw [neg_pi_div_two_lt_arcsin]; nlinarith
  · rw [arcsin_lt_pi_div_two]; nlinarith

end Verif.Props
