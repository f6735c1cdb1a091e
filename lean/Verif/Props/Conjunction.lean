import Verif.Model.Conjunction
import Verif.Props.Interp
import Verif.Props.InterpZero
import Verif.Props.Angle
import Verif.Lemmas.Tangent
import Mathlib.Tactic

/-! Properties C119–C121: conjunctions and least separations. -/

namespace Verif.Props

open Verif.Go Real Verif.Model Verif.Model.Conjunction Verif.Model.Angle Verif.Spec Verif.Lemmas

/-! ### C119 -/

/-- What the search for a conjunction gives, for the two columns of differences. -/
theorem conj_sound (t1 t5 t Δ Y : ℝ) (dr dd : List ℝ) (hY : ∀ v ∈ dr, |v| ≤ Y) (h : conj t1 t5 dr dd = .ok (t, Δ)) :
    min t1 t5 ≤ t ∧ t ≤ max t1 t5 ∧
    (∃ g, PolyFun 4 g ∧ Through t1 t5 dr g ∧ |g t| ≤ Y * (1 / 10 ^ 27)) ∧
    ∃ f, PolyFun 4 f ∧ Through t1 t5 dd f ∧ Δ = f t := by
  unfold conj at h
  cases h1 : Interp.NewLen5 t1 t5 dr with
  | error e => simp [h1] at h
  | ok l =>
    simp only [h1] at h
    cases h2 : l.Zero true with
    | error e => simp [h2] at h
    | ok s =>
      simp only [h2] at h
      cases h3 : Interp.NewLen5 t1 t5 dd with
      | error e => simp [h3] at h
      | ok l' =>
        simp only [h3] at h
        cases h4 : l'.InterpolateXStrict s with
        | error e => simp [h4] at h
        | ok w =>
          simp only [h4, Except.ok.injEq, Prod.mk.injEq] at h
          obtain ⟨rfl, rfl⟩ := h
          obtain ⟨y0, y1, y2, y3, y4, rfl, -⟩ := newLen5_ok h1
          obtain ⟨z1, z2, z3⟩ := C26_zero_sound _ _ _ _ _ _ _ Y l h1 hY true s h2
          obtain ⟨p1, p2⟩ := C24_len5_polynomial _ _ _ _ h1
          obtain ⟨q1, q2⟩ := C24_len5_polynomial _ _ _ _ h3
          refine ⟨z1, z2, ⟨_, p1, p2, by simpa using z3⟩, _, q1, q2, ?_⟩
          obtain ⟨a, b⟩ := C27_len5_strict_partial _ _ _ _ h3 s
          by_cases hc : |s - (t1 + t5) / 2| ≤ |t5 - t1| / 4
          · rw [a hc, Except.ok.injEq] at h4; exact h4.symm
          · rw [b hc] at h4; simp at h4

/-- C119.  A conjunction that is returned is one: the time is in the table, the quartic through the differences of the first
coordinate is zero there, and the second result is the quartic through the differences of the second coordinate there. -/
theorem C119_planetary (t1 t5 t Δ Y : ℝ) (r1 d1 r2 d2 : List ℝ) (hY : ∀ v ∈ List.zipWith (· - ·) r2 r1, |v| ≤ Y)
    (h : Planetary t1 t5 r1 d1 r2 d2 = .ok (t, Δ)) :
    r1.length = 5 ∧ d1.length = 5 ∧ r2.length = 5 ∧ d2.length = 5 ∧ min t1 t5 ≤ t ∧ t ≤ max t1 t5 ∧
    (∃ g, PolyFun 4 g ∧ Through t1 t5 (List.zipWith (· - ·) r2 r1) g ∧ |g t| ≤ Y * (1 / 10 ^ 27)) ∧
    ∃ f, PolyFun 4 f ∧ Through t1 t5 (List.zipWith (· - ·) d2 d1) f ∧ Δ = f t := by
  unfold Planetary at h
  split at h
  · simp at h
  · next hl =>
    push Not at hl
    obtain ⟨l1, l2, l3, l4⟩ := hl
    exact ⟨l1, l2, l3, l4, conj_sound t1 t5 t Δ Y _ _ hY h⟩

/-- C119.  The same for a star. -/
theorem C119_stellar (t1 t5 t Δ Y r1 d1 : ℝ) (r2 d2 : List ℝ) (hY : ∀ v ∈ r2.map (· - r1), |v| ≤ Y)
    (h : Stellar t1 t5 r1 d1 r2 d2 = .ok (t, Δ)) :
    r2.length = 5 ∧ d2.length = 5 ∧ min t1 t5 ≤ t ∧ t ≤ max t1 t5 ∧
    (∃ g, PolyFun 4 g ∧ Through t1 t5 (r2.map (· - r1)) g ∧ |g t| ≤ Y * (1 / 10 ^ 27)) ∧
    ∃ f, PolyFun 4 f ∧ Through t1 t5 (d2.map (· - d1)) f ∧ Δ = f t := by
  unfold Stellar at h
  split at h
  · simp at h
  · next hl =>
    push Not at hl
    obtain ⟨l1, l2⟩ := hl
    exact ⟨l1, l2, conj_sound t1 t5 t Δ Y _ _ hY h⟩

/-- C119.  A star is a planet that does not move. -/
theorem C119_star_is_planet (t1 t5 r1 d1 a0 a1 a2 a3 a4 b0 b1 b2 b3 b4 : ℝ) :
    Stellar t1 t5 r1 d1 [a0, a1, a2, a3, a4] [b0, b1, b2, b3, b4] =
      Planetary t1 t5 (List.replicate 5 r1) (List.replicate 5 d1) [a0, a1, a2, a3, a4] [b0, b1, b2, b3, b4] := by
  simp [Stellar, Planetary, List.replicate]

theorem len5_ok (t1 t5 y0 y1 y2 y3 y4 : ℝ) (ht : t1 ≠ t5) : ∃ l, Interp.NewLen5 t1 t5 [y0, y1, y2, y3, y4] = .ok l :=
  ⟨_, by simp only [Interp.NewLen5]; rw [if_neg ht.symm]⟩

/-- C119.  Uniform motion, with the conjunction in the inner half of the table but not exactly at the middle, is found exactly. -/
theorem C119_uniform_partial (t1 t5 y s b : ℝ) (ht : t1 ≠ t5) (hy : y ≠ 0) (hs : s ≠ 0) (hr : |y / s| ≤ 1) :
    Planetary t1 t5 [0, 0, 0, 0, 0] [0, 0, 0, 0, 0] [y - 2 * s, y - s, y, y + s, y + 2 * s] [b, b, b, b, b] =
      .ok ((t1 + t5) / 2 - (t5 - t1) / 4 * (y / s), b) := by
  obtain ⟨l, h1, h2⟩ := C26_linear t1 t5 y s ht hy hs (by linarith) true
  obtain ⟨l', h3⟩ := len5_ok t1 t5 b b b b b ht
  unfold Planetary
  rw [if_neg (by simp)]
  simp only [List.zipWith_cons_cons, List.zipWith_nil_left, sub_zero]
  unfold conj
  simp only [h1, h2, h3]
  have hin : |(t1 + t5) / 2 - (t5 - t1) / 4 * (y / s) - (t1 + t5) / 2| ≤ |t5 - t1| / 4 := by
    rw [show (t1 + t5) / 2 - (t5 - t1) / 4 * (y / s) - (t1 + t5) / 2 = -((t5 - t1) / 4 * (y / s)) by ring, abs_neg, abs_mul, abs_div,
      abs_of_pos (by norm_num : (0 : ℝ) < 4)]
    have : 0 ≤ |t5 - t1| / 4 := by positivity
    nlinarith
  rw [(C27_len5_strict_partial _ _ _ _ h3 _).1 hin]
  have := C24_len5_unique _ _ _ _ h3 (fun _ => b) ⟨Polynomial.C b, by simp, by simp⟩ (by
    intro i hi
    simp at hi
    interval_cases i <;> simp) ((t1 + t5) / 2 - (t5 - t1) / 4 * (y / s))
  rw [this]

/-- C119.  Uniform motion with the conjunction in the outer half of the table is not found: there is an error although the bodies
are in conjunction within the table. -/
theorem C119_violation (t1 t5 y s b : ℝ) (ht : t1 ≠ t5) (hs : s ≠ 0) (hr : 1 < |y / s|) (hr2 : |y / s| ≤ 2) :
    (∃ t, min t1 t5 ≤ t ∧ t ≤ max t1 t5 ∧
      ∀ g, PolyFun 4 g → Through t1 t5 [y - 2 * s, y - s, y, y + s, y + 2 * s] g → g t = 0) ∧
    Planetary t1 t5 [0, 0, 0, 0, 0] [0, 0, 0, 0, 0] [y - 2 * s, y - s, y, y + s, y + 2 * s] [b, b, b, b, b] =
      .error (.interp .XOutOfRange) := by
  have hy : y ≠ 0 := by
    rintro rfl
    simp at hr
    linarith
  obtain ⟨l, h1, h2⟩ := C26_linear t1 t5 y s ht hy hs hr2 true
  obtain ⟨l', h3⟩ := len5_ok t1 t5 b b b b b ht
  have hd : t5 - t1 ≠ 0 := sub_ne_zero.2 ht.symm
  constructor
  · refine ⟨(t1 + t5) / 2 - (t5 - t1) / 4 * (y / s), ?_, ?_, ?_⟩
    · have h4 := abs_le.mp hr2
      rcases le_total t1 t5 with h | h
      · rw [min_eq_left h]; nlinarith
      · rw [min_eq_right h]; nlinarith
    · have h4 := abs_le.mp hr2
      rcases le_total t1 t5 with h | h
      · rw [max_eq_right h]; nlinarith
      · rw [max_eq_left h]; nlinarith
    · intro g hg hth
      have e1 := C24_len5_unique _ _ _ _ h1 g hg hth ((t1 + t5) / 2 - (t5 - t1) / 4 * (y / s))
      rw [← e1]
      have e2 := C24_len5_unique _ _ _ _ h1 (fun x => y + s * ((4 * x - 2 * (t5 + t1)) / (t5 - t1)))
        ⟨Polynomial.C (y - s * (2 * (t5 + t1)) / (t5 - t1)) + Polynomial.C (s * 4 / (t5 - t1)) * Polynomial.X, by compute_degree!, by
          intro x; simp; field_simp; ring⟩ (by
        intro i hi
        simp at hi
        interval_cases i <;> (norm_num; try (field_simp; try ring)); right; left; trivial) ((t1 + t5) / 2 - (t5 - t1) / 4 * (y / s))
      rw [e2]
      field_simp
      ring
  · unfold Planetary
    rw [if_neg (by simp)]
    simp only [List.zipWith_cons_cons, List.zipWith_nil_left, sub_zero]
    unfold conj
    simp only [h1, h2, h3]
    rw [(C27_len5_strict_partial _ _ _ _ h3 _).2]
    rw [show (t1 + t5) / 2 - (t5 - t1) / 4 * (y / s) - (t1 + t5) / 2 = -((t5 - t1) / 4 * (y / s)) by ring, abs_neg, abs_mul, abs_div,
      abs_of_pos (by norm_num : (0 : ℝ) < 4)]
    have : 0 < |t5 - t1| / 4 := by positivity
    nlinarith

/-! ### C120 -/

/-- C120.  What `MinSep` returns is an extreme value, within the time of the table, of the parabola through the three separations;
it is the least one when the middle separation is below the mean of the others, and the greatest one otherwise. -/
theorem C120_minSep_partial (jd1 jd3 m : ℝ) (r1 d1 r2 d2 : List ℝ) (h : MinSep jd1 jd3 r1 d1 r2 d2 = .ok m) :
    ∃ y0 y1 y2 g t, seps r1 d1 r2 d2 = [y0, y1, y2] ∧ PolyFun 2 g ∧ Through jd1 jd3 [y0, y1, y2] g ∧
      min jd1 jd3 ≤ t ∧ t ≤ max jd1 jd3 ∧ m = g t ∧ 2 * y1 ≠ y0 + y2 ∧
      (2 * y1 < y0 + y2 → ∀ s, m ≤ g s) ∧ (y0 + y2 < 2 * y1 → ∀ s, g s ≤ m) := by
  unfold MinSep at h
  split at h
  · simp at h
  · cases h1 : Interp.NewLen3 jd1 jd3 (seps r1 d1 r2 d2) with
    | error e => simp [h1] at h
    | ok d =>
      simp only [h1] at h
      cases h2 : d.Extremum with
      | error e => simp [h2] at h
      | ok p =>
        obtain ⟨x, v⟩ := p
        simp only [h2, Except.ok.injEq] at h
        subst h
        obtain ⟨p1, p2⟩ := C20_len3_polynomial _ _ _ _ h1
        obtain ⟨e1, e2, e3, e4⟩ := C21_extremum_sound _ _ _ _ h1 _ _ h2
        obtain ⟨y0, y1, y2, hy, hx, hd⟩ := newLen3_ok h1
        rw [hy] at p2
        have hv : y2 - y1 - (y1 - y0) ≠ 0 ∧ v = y1 - (y2 - y0) ^ 2 / (8 * (y2 - y1 - (y1 - y0))) := by
          rw [hd] at h2
          simp only [Interp.Len3.Extremum, Interp.Len3.y1, List.getD_cons_succ, List.getD_cons_zero] at h2
          split_ifs at h2 with c1 c2
          simp only [Except.ok.injEq, Prod.mk.injEq] at h2
          refine ⟨c1, ?_⟩
          rw [← h2.2]
          congr 2
          ring
        obtain ⟨hc, hv⟩ := hv
        have key : ∀ s, ∃ w, d.InterpolateX s - v = (y2 - y1 - (y1 - y0)) * w ^ 2 := by
          intro s
          refine ⟨√(1/2) * ((2 * s - (jd3 + jd1)) / (jd3 - jd1) + (y2 - y0) / (2 * (y2 - y1 - (y1 - y0)))), ?_⟩
          rw [mul_pow, Real.sq_sqrt (by norm_num), hv, hd]
          simp only [Interp.Len3.InterpolateX, Interp.Len3.InterpolateN, Interp.Len3.y1, List.getD_cons_succ, List.getD_cons_zero]
          generalize (2 * s - (jd3 + jd1)) / (jd3 - jd1) = w
          field_simp
          ring
        refine ⟨y0, y1, y2, _, x, hy, p1, p2, e1, e2, e3.symm, fun h => hc (by linarith), ?_, ?_⟩
        · intro hlt s
          obtain ⟨w, hw⟩ := key s
          nlinarith [sq_nonneg w]
        · intro hlt s
          obtain ⟨w, hw⟩ := key s
          nlinarith [sq_nonneg w]

/-- C120.  The three separations are those of the rows. -/
theorem C120_rows (a0 a1 a2 b0 b1 b2 c0 c1 c2 e0 e1 e2 : ℝ) :
    seps [a0, a1, a2] [b0, b1, b2] [c0, c1, c2] [e0, e1, e2] =
      [Angle.Sep a0 b0 c0 e0, Angle.Sep a1 b1 c1 e1, Angle.Sep a2 b2 c2 e2] := by
  simp [seps]

/-- C120.  Two bodies on the equator that part and return: the "minimum separation" is the greatest of all, 60 degrees, though
they are 30 degrees apart in the outer rows. -/
theorem C120_violation :
    MinSep 0 2 [0, 0, 0] [0, 0, 0] [π / 6, π / 3, π / 6] [0, 0, 0] = .ok (π / 3) ∧
    Verif.Spec.sep 0 0 (π / 6) 0 = π / 6 ∧ π / 6 < π / 3 := by
  have hp := pi_pos
  have e0 : ∀ x : ℝ, sin 0 * sin 0 + cos 0 * cos 0 * cos (0 - x) = cos x := by
    intro x; simp
  have a1 : ∀ x, 10 / 60 * π / 180 < x → x ≤ π → Angle.Sep 0 0 x 0 = x := by
    intro x h0 h1
    have h2 : cos x < CosSmallAngle := by
      unfold CosSmallAngle
      exact cos_lt_cos_of_nonneg_of_le_pi (by positivity) h1 h0
    simp only [Angle.Sep, e0]
    rw [if_pos h2, arccos_cos (by linarith) h1]
  refine ⟨?_, ?_, by linarith⟩
  · unfold MinSep
    rw [if_neg (by simp), C120_rows, a1 (π / 6) (by linarith) (by linarith), a1 (π / 3) (by linarith) (by linarith)]
    have h1 : Interp.NewLen3 0 2 [π / 6, π / 3, π / 6] = .ok ⟨0, 2, [π / 6, π / 3, π / 6], π / 3 - π / 6, π / 6 - π / 3,
        (π / 6 - π / 3) - (π / 3 - π / 6), (π / 3 - π / 6) + (π / 6 - π / 3), 2 + 0, 2 - 0⟩ := by
      simp [Interp.NewLen3]
    have hc : (π / 6 - π / 3) - (π / 3 - π / 6) ≠ 0 := by
      intro h; linarith
    norm_num [h1, Interp.Len3.Extremum, hc, Interp.Len3.y1]
  · rw [sep_eq, e0, arccos_cos (by linarith) (by linarith)]

/-! ### C121 -/

/-- The tangent plane at body 1 in `MinSepRect`, with K written out. -/
theorem uv_eq (r1 d1 r2 d2 : ℝ) (hd : cos d1 ≠ 0) (hc : 0 < cos (r2 - r1)) :
    uv r1 d1 r2 d2 =
      (-(cos d1 - sin d1 * sin (d2 - d1)) * sin (r2 - r1) / (cos (r2 - r1) + sin d1 ^ 2 * (1 - cos (r2 - r1))),
       (cos (r2 - r1) * sin (d2 - d1) + sin d1 * cos d1 * (1 - cos (r2 - r1))) /
        (cos (r2 - r1) + sin d1 ^ 2 * (1 - cos (r2 - r1)))) := by
  have hh : cos ((r2 - r1) / 2) ≠ 0 := by
    intro h0
    have := cos_sq ((r2 - r1) / 2)
    rw [h0, show 2 * ((r2 - r1) / 2) = r2 - r1 by ring] at this
    linarith
  have ht : tan (r2 - r1) * tan ((r2 - r1) / 2) = (1 - cos (r2 - r1)) / cos (r2 - r1) := by
    rw [tan_eq_sin_div_cos, tan_eq_sin_div_cos]
    have e1 := sin_two_mul ((r2 - r1) / 2)
    have e2 := cos_two_mul ((r2 - r1) / 2)
    rw [show 2 * ((r2 - r1) / 2) = r2 - r1 by ring] at e1 e2
    rw [div_mul_div_comm, div_eq_div_iff (mul_ne_zero hc.ne' hh) hc.ne', e1]
    have e3 := sin_sq_add_cos_sq ((r2 - r1) / 2)
    have : sin ((r2 - r1) / 2) ^ 2 * 2 = 1 - cos (r2 - r1) := by rw [e2]; linarith
    linear_combination (cos ((r2 - r1) / 2) * cos (r2 - r1)) * this
  have hP : 0 < cos (r2 - r1) + sin d1 ^ 2 * (1 - cos (r2 - r1)) := by
    have := cos_le_one (r2 - r1)
    nlinarith [sq_nonneg (sin d1)]
  have hK : 1 / (1 + sin d1 * sin d1 * tan (r2 - r1) * tan ((r2 - r1) / 2)) =
      cos (r2 - r1) / (cos (r2 - r1) + sin d1 ^ 2 * (1 - cos (r2 - r1))) := by
    rw [mul_assoc, ht, div_eq_div_iff _ hP.ne']
    · field_simp
    · have : 1 + sin d1 * sin d1 * ((1 - cos (r2 - r1)) / cos (r2 - r1)) =
        (cos (r2 - r1) + sin d1 ^ 2 * (1 - cos (r2 - r1))) / cos (r2 - r1) := by field_simp
      rw [this]
      positivity
  unfold uv
  simp only
  rw [hK]
  have hP' := hP.ne'
  have hc' := hc.ne'
  refine Prod.ext ?_ ?_
  · simp only
    rw [tan_eq_sin_div_cos]
    field_simp
  · simp only
    rw [show sin d1 * cos d1 * tan (r2 - r1) * tan ((r2 - r1) / 2) = sin d1 * cos d1 * (tan (r2 - r1) * tan ((r2 - r1) / 2)) by ring, ht]
    field_simp

/-- The coordinates of the direction of body 2 projected on the plane that touches the sphere at body 1: westward and northward. -/
noncomputable def touching (r1 d1 r2 d2 : ℝ) : ℝ × ℝ :=
  (-inner ℝ (dir r2 d2) (east r1) / inner ℝ (dir r2 d2) (dir r1 d1),
   inner ℝ (dir r2 d2) (north r1 d1) / inner ℝ (dir r2 d2) (dir r1 d1))

theorem touching_eq (r1 d1 r2 d2 : ℝ) :
    touching r1 d1 r2 d2 =
      (-(cos d1 * cos (d2 - d1) - sin d1 * sin (d2 - d1)) * sin (r2 - r1) /
        (cos (d2 - d1) * (cos (r2 - r1) + sin d1 ^ 2 * (1 - cos (r2 - r1))) + sin d1 * cos d1 * sin (d2 - d1) * (1 - cos (r2 - r1))),
       (cos (d2 - d1) * (sin d1 * cos d1 * (1 - cos (r2 - r1))) + sin (d2 - d1) * (1 - sin d1 ^ 2 * (1 - cos (r2 - r1)))) /
        (cos (d2 - d1) * (cos (r2 - r1) + sin d1 ^ 2 * (1 - cos (r2 - r1))) + sin d1 * cos d1 * sin (d2 - d1) * (1 - cos (r2 - r1)))) := by
  have a1 := sin_sq_add_cos_sq d1
  have a2 := sin_sq_add_cos_sq d2
  have a3 := sin_sq_add_cos_sq r1
  have a4 := sin_sq_add_cos_sq r2
  unfold touching dir east north
  rw [inner_vec, inner_vec, inner_vec]
  simp only [sin_sub, cos_sub]
  generalize sin d1 = s1 at *
  generalize cos d1 = c1 at *
  generalize sin d2 = s2 at *
  generalize cos d2 = c2 at *
  generalize sin r1 = p1 at *
  generalize cos r1 = q1 at *
  generalize sin r2 = p2 at *
  generalize cos r2 = q2 at *
  refine Prod.ext ?_ ?_ <;> simp only <;> congr 1 <;> clear * - a1 a2 a3 a4 <;> grind

/-- C121.  The length of the exact plane coordinates is the tangent of the separation. -/
theorem C121_tan_sep (r1 d1 r2 d2 : ℝ) (h : 0 < inner ℝ (dir r2 d2) (dir r1 d1)) :
    hypot (touching r1 d1 r2 d2).1 (touching r1 d1 r2 d2).2 = tan (sep r1 d1 r2 d2) := by
  have hG : inner ℝ (dir r2 d2) (dir r1 d1) = sin d1 * sin d2 + cos d1 * cos d2 * cos (r1 - r2) := by
    rw [real_inner_comm, inner_dir]
  have key : inner ℝ (dir r2 d2) (dir r1 d1) ^ 2 + inner ℝ (dir r2 d2) (east r1) ^ 2 + inner ℝ (dir r2 d2) (north r1 d1) ^ 2 = 1 := by
    have a1 := sin_sq_add_cos_sq d1
    have a2 := sin_sq_add_cos_sq d2
    have a3 := sin_sq_add_cos_sq r1
    have a4 := sin_sq_add_cos_sq r2
    unfold dir east north
    rw [inner_vec, inner_vec, inner_vec]
    generalize sin d1 = s1 at *
    generalize cos d1 = c1 at *
    generalize sin d2 = s2 at *
    generalize cos d2 = c2 at *
    generalize sin r1 = p1 at *
    generalize cos r1 = q1 at *
    generalize sin r2 = p2 at *
    generalize cos r2 = q2 at *
    clear * - a1 a2 a3 a4
    grind
  rw [sep_eq, ← hG, tan_arccos]
  unfold hypot touching
  simp only
  generalize inner ℝ (dir r2 d2) (dir r1 d1) = G at *
  generalize inner ℝ (dir r2 d2) (east r1) = e at *
  generalize inner ℝ (dir r2 d2) (north r1 d1) = n at *
  rw [show (-e / G) ^ 2 + (n / G) ^ 2 = (1 - G ^ 2) / G ^ 2 by field_simp; linarith, Real.sqrt_div' _ (sq_nonneg G), Real.sqrt_sq h.le]

set_option maxHeartbeats 1000000 in
/-- C121.  The coordinates `MinSepRect` computes for a row differ from those of the touching plane by the cube of the separation
at most. -/
theorem C121_plane (r1 d1 r2 d2 : ℝ) (hd : cos d1 ≠ 0) (ha : |r2 - r1| ≤ 1 / 10) (hb : |d2 - d1| ≤ 1 / 10) :
    |(uv r1 d1 r2 d2).1 - (touching r1 d1 r2 d2).1| ≤ |r2 - r1| * |d2 - d1| * ((r2 - r1) ^ 2 + (d2 - d1) ^ 2) ∧
    |(uv r1 d1 r2 d2).2 - (touching r1 d1 r2 d2).2| ≤ |d2 - d1| * ((r2 - r1) ^ 2 + (d2 - d1) ^ 2) := by
  have ca : 1 - (r2 - r1) ^ 2 / 2 ≤ cos (r2 - r1) := one_sub_sq_div_two_le_cos
  have cb : 1 - (d2 - d1) ^ 2 / 2 ≤ cos (d2 - d1) := one_sub_sq_div_two_le_cos
  have ca1 := cos_le_one (r2 - r1)
  have cb1 := cos_le_one (d2 - d1)
  have sa := abs_sin_le_abs (x := r2 - r1)
  have sb := abs_sin_le_abs (x := d2 - d1)
  have a1 := sin_sq_add_cos_sq d1
  have ha2 : (r2 - r1) ^ 2 ≤ 1 / 100 := by rw [← sq_abs]; nlinarith [abs_nonneg (r2 - r1)]
  have hb2 : (d2 - d1) ^ 2 ≤ 1 / 100 := by rw [← sq_abs]; nlinarith [abs_nonneg (d2 - d1)]
  have hc : 0 < cos (r2 - r1) := by linarith
  rw [uv_eq r1 d1 r2 d2 hd hc, touching_eq]
  simp only
  clear hd
  generalize r2 - r1 = a at *
  generalize d2 - d1 = b at *
  generalize sin d1 = s1 at *
  generalize cos d1 = c1 at *
  generalize sin a = s at *
  generalize cos a = c at *
  generalize sin b = S at *
  generalize cos b = C at *
  have h1 : |s1 * c1| ≤ 1 / 2 := by
    rw [abs_le]; constructor <;> nlinarith [sq_nonneg (s1 + c1), sq_nonneg (s1 - c1)]
  have hs1 : |s1| ≤ 1 := by rw [abs_le]; constructor <;> nlinarith [sq_nonneg c1]
  have hc1 : |c1| ≤ 1 := by rw [abs_le]; constructor <;> nlinarith [sq_nonneg s1]
  have hS : |S| ≤ 1 / 10 := sb.trans hb
  have hk : |s1 * c1 * S * (1 - c)| ≤ 1 / 20 * (1 - c) := by
    rw [abs_mul, abs_mul, abs_of_nonneg (by linarith : 0 ≤ 1 - c)]
    apply mul_le_mul_of_nonneg_right _ (by linarith)
    calc |s1 * c1| * |S| ≤ 1 / 2 * (1 / 10) := by gcongr
      _ = _ := by norm_num
  obtain ⟨P, hP⟩ : ∃ P, P = c + s1 ^ 2 * (1 - c) := ⟨_, rfl⟩
  obtain ⟨G, hG⟩ : ∃ G, G = C * P + s1 * c1 * S * (1 - c) := ⟨_, rfl⟩
  have hPl : c ≤ P := by rw [hP]; nlinarith [mul_nonneg (sq_nonneg s1) (by linarith : 0 ≤ 1 - c)]
  have hPu : P ≤ 1 := by rw [hP]; nlinarith [mul_nonneg (sq_nonneg c1) (by linarith : 0 ≤ 1 - c)]
  obtain ⟨k1, k2⟩ := abs_le.mp hk
  have hCP : C + P - 1 ≤ C * P := by nlinarith [mul_nonneg (by linarith : 0 ≤ 1 - C) (by linarith : 0 ≤ 1 - P)]
  have hCP1 : C * P ≤ 1 := by nlinarith
  have hGl : 1 - b ^ 2 / 2 - 21 / 40 * a ^ 2 ≤ G := by rw [hG]; linarith
  have hGu : G ≤ 1 + a ^ 2 / 40 := by rw [hG]; linarith
  have hPp : 0 < P := by linarith
  have hGp : 0 < G := by linarith
  have hPG : 97 / 100 ≤ P * G := by nlinarith
  rw [← hP, ← hG]
  constructor
  · have e : -(c1 - s1 * S) * s / P - -(c1 * C - s1 * S) * s / G = -s * (S * (s1 * P * (1 - C) + (c1 - s1 * S) * (s1 * c1) * (1 - c))) / (P * G) := by
      rw [div_sub_div _ _ hPp.ne' hGp.ne', hG]
      congr 1
      ring
    rw [e, abs_div, abs_of_pos (mul_pos hPp hGp), div_le_iff₀ (mul_pos hPp hGp), abs_mul, abs_neg, abs_mul]
    have hin : |s1 * P * (1 - C) + (c1 - s1 * S) * (s1 * c1) * (1 - c)| ≤ 97 / 100 * (a ^ 2 + b ^ 2) := by
      have q1 : |s1 * P * (1 - C)| ≤ 1 * 1 * (1 - C) := by
        rw [abs_mul, abs_mul, abs_of_nonneg (by linarith : 0 ≤ 1 - C), abs_of_pos hPp]
        apply mul_le_mul_of_nonneg_right _ (by linarith)
        gcongr
      have q3 : |c1 - s1 * S| ≤ 1 + 1 * (1 / 10) := by
        refine (abs_sub _ _).trans ?_
        rw [abs_mul]
        gcongr
      have q2 : |(c1 - s1 * S) * (s1 * c1) * (1 - c)| ≤ (1 + 1 * (1 / 10)) * (1 / 2) * (1 - c) := by
        rw [abs_mul, abs_mul, abs_of_nonneg (by linarith : 0 ≤ 1 - c)]
        apply mul_le_mul_of_nonneg_right _ (by linarith)
        gcongr
      have := abs_add_le (s1 * P * (1 - C)) ((c1 - s1 * S) * (s1 * c1) * (1 - c))
      linarith [sq_nonneg a, sq_nonneg b]
    calc |s| * (|S| * |s1 * P * (1 - C) + (c1 - s1 * S) * (s1 * c1) * (1 - c)|) ≤ |a| * (|b| * (97 / 100 * (a ^ 2 + b ^ 2))) := by gcongr
      _ = |a| * |b| * (a ^ 2 + b ^ 2) * (97 / 100) := by ring
      _ ≤ |a| * |b| * (a ^ 2 + b ^ 2) * (P * G) := by gcongr
  · have e : (c * S + s1 * c1 * (1 - c)) / P - (C * (s1 * c1 * (1 - c)) + S * (1 - s1 ^ 2 * (1 - c))) / G = S * (c * (G - 1)) / (P * G) := by
      rw [div_sub_div _ _ hPp.ne' hGp.ne', hG]
      congr 1
      rw [hP]
      have : c1 ^ 2 = 1 - s1 ^ 2 := by linarith
      linear_combination (s1 ^ 2 * S * (1 - c) ^ 2) * this
    rw [e, abs_div, abs_of_pos (mul_pos hPp hGp), div_le_iff₀ (mul_pos hPp hGp), abs_mul]
    have hin : |c * (G - 1)| ≤ 97 / 100 * (a ^ 2 + b ^ 2) := by
      rw [abs_mul, abs_of_pos hc]
      have : |G - 1| ≤ 97 / 100 * (a ^ 2 + b ^ 2) := by
        rw [abs_le]; constructor <;> linarith [sq_nonneg a, sq_nonneg b]
      nlinarith [abs_nonneg (G - 1)]
    calc |S| * |c * (G - 1)| ≤ |b| * (97 / 100 * (a ^ 2 + b ^ 2)) := by gcongr
      _ = |b| * (a ^ 2 + b ^ 2) * (97 / 100) := by ring
      _ ≤ |b| * (a ^ 2 + b ^ 2) * (P * G) := by gcongr

/-- The path of body 2 in the plane: the quadratics through the three rows, at row number n (-1, 0, 1). -/
noncomputable def quad (y0 y1 y2 n : ℝ) : ℝ := y1 + (y2 - y0) / 2 * n + (y0 + y2 - 2 * y1) / 2 * n ^ 2

theorem at3_quad (y0 y1 y2 n : ℝ) : at3 y0 y1 y2 n = quad y0 y1 y2 n := by
  unfold at3 quad
  ring

theorem quad_deriv (y0 y1 y2 n : ℝ) : HasDerivAt (quad y0 y1 y2) ((y2 - y0) / 2 + n * (y0 + y2 - 2 * y1)) n := by
  unfold quad
  have h := (((hasDerivAt_id n).const_mul ((y2 - y0) / 2)).const_add y1).add (((hasDerivAt_pow 2 n)).const_mul ((y0 + y2 - 2 * y1) / 2))
  refine h.congr_deriv ?_
  simp
  ring

/-- n is one Newton step, smaller than 1e-5, from m; the step aims at the point of the tangent of the path at m closest to the
origin. -/
def Newton (u v : ℝ → ℝ) (m n : ℝ) : Prop :=
  ∃ up vp, HasDerivAt u up m ∧ HasDerivAt v vp m ∧ (up, vp) ≠ (0, 0) ∧ |n - m| < 1e-5 ∧
    ∀ k, (u m + (n - m) * up) ^ 2 + (v m + (n - m) * vp) ^ 2 ≤ (u m + k * up) ^ 2 + (v m + k * vp) ^ 2

theorem newton_step (u v up vp : ℝ) (h : up * up + vp * vp ≠ 0) (k : ℝ) :
    (u + -(u * up + v * vp) / (up * up + vp * vp) * up) ^ 2 + (v + -(u * up + v * vp) / (up * up + vp * vp) * vp) ^ 2 ≤
      (u + k * up) ^ 2 + (v + k * vp) ^ 2 := by
  have hp : 0 < up * up + vp * vp := lt_of_le_of_ne (by nlinarith [mul_self_nonneg up, mul_self_nonneg vp]) (Ne.symm h)
  obtain ⟨z, hz⟩ : ∃ z, z = -(u * up + v * vp) / (up * up + vp * vp) := ⟨_, rfl⟩
  have hz2 : z * (up * up + vp * vp) = -(u * up + v * vp) := by rw [hz]; exact div_mul_cancel₀ _ h
  rw [← hz]
  have e : (u + k * up) ^ 2 + (v + k * vp) ^ 2 - ((u + z * up) ^ 2 + (v + z * vp) ^ 2) = (up * up + vp * vp) * (k - z) ^ 2 := by
    linear_combination (2 * (k - z)) * hz2
  linarith [mul_nonneg hp.le (sq_nonneg (k - z))]

theorem rectLoop_sound (u0 u1 u2 v0 v1 v2 s : ℝ) : ∀ (limit : ℕ) (n dn : ℝ),
    (|dn| < 1e-5 → Newton (quad u0 u1 u2) (quad v0 v1 v2) (n - dn) n) → rectLoop u0 u1 u2 v0 v1 v2 limit n dn = .ok s →
    ∃ m n, Newton (quad u0 u1 u2) (quad v0 v1 v2) m n ∧ s = hypot (quad u0 u1 u2 n) (quad v0 v1 v2 n) := by
  intro limit
  induction limit with
  | zero => intro n dn _ h; simp [rectLoop] at h
  | succ k ih =>
    intro n dn hn h
    rw [rectLoop] at h
    simp only at h
    split_ifs at h with h1 h2
    · rw [Except.ok.injEq] at h
      exact ⟨n - dn, n, hn h1, by rw [← h, at3_quad, at3_quad]⟩
    · refine ih _ _ ?_ h
      intro hs
      rw [add_sub_cancel_right]
      refine ⟨_, _, quad_deriv u0 u1 u2 n, quad_deriv v0 v1 v2 n, ?_, by rw [add_sub_cancel_left]; exact hs, ?_⟩
      · intro h0
        simp only [Prod.mk.injEq] at h0
        exact h2 (by rw [h0.1, h0.2]; ring)
      · intro k
        rw [add_sub_cancel_left, at3_quad, at3_quad]
        exact newton_step _ _ _ _ h2 k

/-- C121.  A result of `MinSepRect` is the distance, in the plane of the three computed rows, of a point of the path that is
stationary up to a last step of less than 1e-5 of the interval. -/
theorem C121_sound_partial (r1 d1 r2 d2 : List ℝ) (s : ℝ) (h : MinSepRect r1 d1 r2 d2 = .ok s) :
    ∃ u0 v0 u1 v1 u2 v2 m n, List.zipWith (fun p q => uv p.1 p.2 q.1 q.2) (r1.zip d1) (r2.zip d2) = [(u0, v0), (u1, v1), (u2, v2)] ∧
      Newton (quad u0 u1 u2) (quad v0 v1 v2) m n ∧ s = hypot (quad u0 u1 u2 n) (quad v0 v1 v2 n) := by
  unfold MinSepRect at h
  split at h
  · next u0 v0 u1 v1 u2 v2 hz _ _ _ _ =>
    simp only at h
    split_ifs at h with h1
    obtain ⟨m, n, hn, hs⟩ := rectLoop_sound u0 u1 u2 v0 v1 v2 s _ _ _ (by
      intro hlt
      rw [sub_self]
      refine ⟨_, _, quad_deriv u0 u1 u2 0, quad_deriv v0 v1 v2 0, ?_, by rw [sub_zero]; exact hlt, ?_⟩
      · intro h0
        simp only [zero_mul, add_zero, Prod.mk.injEq] at h0
        exact h1 (by rw [h0.1, h0.2]; ring)
      · intro k
        have := newton_step u1 v1 ((u2 - u0) / 2) ((v2 - v0) / 2) h1 k
        simpa [quad] using this) h
    exact ⟨u0, v0, u1, v1, u2, v2, m, n, hz, hn, hs⟩
  · simp at h

/-- The three values lie on a line, and so do the points between and beyond. -/
theorem quad_line (p a n : ℝ) : quad (p - a) p (p + a) n = p + n * a := by
  unfold quad
  ring

/-- C121.  Uniform motion in the plane: the result is the least distance of the straight path, found in every case in which there
is motion at all. -/
theorem C121_uniform_partial (r1 d1 r2 d2 : List ℝ) (p q a b : ℝ) (hab : (a, b) ≠ (0, 0))
    (hl : r1.length = 3 ∧ d1.length = 3 ∧ r2.length = 3 ∧ d2.length = 3)
    (h : List.zipWith (fun p q => uv p.1 p.2 q.1 q.2) (r1.zip d1) (r2.zip d2) = [(p - a, q - b), (p, q), (p + a, q + b)]) :
    ∃ s n, MinSepRect r1 d1 r2 d2 = .ok s ∧ s = hypot (p + n * a) (q + n * b) ∧ ∀ k, s ≤ hypot (p + k * a) (q + k * b) := by
  have hne : a * a + b * b ≠ 0 := by
    intro h0
    have ha : a = 0 := by nlinarith [mul_self_nonneg a, mul_self_nonneg b]
    have hb : b = 0 := by nlinarith [mul_self_nonneg a, mul_self_nonneg b]
    exact hab (by rw [ha, hb])
  refine ⟨hypot (p + -(p * a + q * b) / (a * a + b * b) * a) (q + -(p * a + q * b) / (a * a + b * b) * b),
    -(p * a + q * b) / (a * a + b * b), ?_, rfl, ?_⟩
  · unfold MinSepRect
    rw [h, hl.1, hl.2.1, hl.2.2.1, hl.2.2.2]
    simp only
    rw [show (p + a - (p - a)) / 2 = a by ring, show (q + b - (q - b)) / 2 = b by ring, if_neg hne]
    obtain ⟨z, hz⟩ : ∃ z, z = -(p * a + q * b) / (a * a + b * b) := ⟨_, rfl⟩
    have hz2 : z * (a * a + b * b) = -(p * a + q * b) := by rw [hz]; exact div_mul_cancel₀ _ hne
    rw [← hz, rectLoop]
    simp only [at3_quad, quad_line]
    split_ifs with c1 c2
    · rfl
    · exfalso
      apply hne
      rw [← c2]
      ring
    · have e : -((p + z * a) * ((p + a - (p - a)) / 2 + z * (p - a + (p + a) - 2 * p)) +
          (q + z * b) * ((q + b - (q - b)) / 2 + z * (q - b + (q + b) - 2 * q))) = 0 := by
        linear_combination -hz2
      rw [e, zero_div, add_zero, rectLoop]
      simp only [at3_quad, quad_line]
      rw [if_pos (by norm_num)]
  · intro k
    unfold hypot
    exact Real.sqrt_le_sqrt (newton_step p q a b hne k)

theorem uv_equator (x : ℝ) : uv 0 0 x 0 = (-tan x, 0) := by
  simp [uv]

/-- C121.  Two bodies that keep their distance have a least separation, but `MinSepRect` gives an error. -/
theorem C121_constant_violation (x : ℝ) :
    MinSepRect [0, 0, 0] [0, 0, 0] [x, x, x] [0, 0, 0] = .error .noConverge := by
  simp [MinSepRect, uv_equator]

/-- C121.  The rows are not the bounds: a body 45°, 63° and 72° away in the three rows gets a least separation of 0, which it would
have had one whole interval before the table. -/
theorem C121_extrapolation_violation :
    MinSepRect [0, 0, 0] [0, 0, 0] [arctan 1, arctan 2, arctan 3] [0, 0, 0] = .ok 0 ∧
    ∀ y ∈ [arctan 1, arctan 2, arctan 3], π / 4 ≤ sep 0 0 y 0 := by
  constructor
  · simp only [MinSepRect, List.zip_cons_cons, List.zip_nil_left, List.zipWith_cons_cons, uv_equator, tan_arctan, List.length_cons,
      List.length_nil]
    norm_num [rectLoop, at3, hypot]
  · have e0 : ∀ x : ℝ, sin 0 * sin 0 + cos 0 * cos 0 * cos (0 - x) = cos x := by
      intro x; simp
    have h : ∀ x : ℝ, 1 ≤ x → π / 4 ≤ sep 0 0 (arctan x) 0 := by
      intro x hx
      have h1 : arctan 1 ≤ arctan x := arctan_strictMono.monotone hx
      rw [arctan_one] at h1
      rw [sep_eq, e0, arccos_cos (by linarith [pi_pos]) (by linarith [arctan_lt_pi_div_two x, pi_pos])]
      exact h1
    intro y hy
    simp only [List.mem_cons, List.not_mem_nil, or_false] at hy
    rcases hy with rfl | rfl | rfl
    · exact h 1 le_rfl
    · exact h 2 (by norm_num)
    · exact h 3 (by norm_num)

end Verif.Props
