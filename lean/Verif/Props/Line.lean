import Verif.Model.Line
import Verif.Spec.Tangent
import Verif.Lemmas.Rotation
import Verif.Lemmas.Tangent
import Verif.Props.Parallactic
import Verif.Props.InterpZero
import Verif.Props.Interp
import Mathlib.Tactic
/-
C105 – C107: bodies in a straight line.
-/
namespace Verif.Props

open Real Verif.Go Verif.Spec Verif.Lemmas Verif.Model

theorem cross_dir (r1 d1 r2 d2 : ℝ) : cross (dir r1 d1) (dir r2 d2) =
    !₂[cos d1 * sin r1 * sin d2 - sin d1 * (cos d2 * sin r2), sin d1 * (cos d2 * cos r2) - cos d1 * cos r1 * sin d2,
       cos d1 * cos r1 * (cos d2 * sin r2) - cos d1 * sin r1 * (cos d2 * cos r2)] := by
  unfold dir; rw [cross_vec]

theorem norm_sq_vec (a b c : ℝ) : ‖(!₂[a, b, c] : V3)‖ = sqrt (a * a + b * b + c * c) := by
  rw [← inner_vec, real_inner_self_eq_norm_sq, sqrt_sq (norm_nonneg _)]

/-- C105: the tabulated function is the triple product of the three directions divided by a product of cosines, so it is
zero exactly when the body is in the plane of the great circle through the two stars. -/
theorem C105_triple (r1 d1 r2 d2 r3 d3 : ℝ) (h1 : |d1| < π / 2) (h2 : |d2| < π / 2) (h3 : |d3| < π / 2) :
    inner ℝ (cross (dir r1 d1) (dir r2 d2)) (dir r3 d3) = -(cos d1 * cos d2 * cos d3) * Line.gc r1 d1 r2 d2 r3 d3 ∧
    (Line.gc r1 d1 r2 d2 r3 d3 = 0 ↔ inner ℝ (cross (dir r1 d1) (dir r2 d2)) (dir r3 d3) = 0) := by
  have c1 : 0 < cos d1 := cos_pos_of_mem_Ioo (abs_lt.1 h1)
  have c2 : 0 < cos d2 := cos_pos_of_mem_Ioo (abs_lt.1 h2)
  have c3 : 0 < cos d3 := cos_pos_of_mem_Ioo (abs_lt.1 h3)
  have key : inner ℝ (cross (dir r1 d1) (dir r2 d2)) (dir r3 d3) = -(cos d1 * cos d2 * cos d3) * Line.gc r1 d1 r2 d2 r3 d3 := by
    rw [cross_dir]
    unfold Line.gc dir
    rw [inner_vec, tan_eq_sin_div_cos, tan_eq_sin_div_cos, tan_eq_sin_div_cos, sin_sub, sin_sub, sin_sub]
    field_simp
    ring
  refine ⟨key, ?_⟩
  rw [key]
  constructor
  · intro h; rw [h, mul_zero]
  · intro h
    rcases mul_eq_zero.1 h with h | h
    · exact absurd (neg_eq_zero.1 h) (by positivity)
    · exact h

/-- C105: `Time` rejects tables of the wrong length, and otherwise any time it returns lies in the table and is a zero of the
quartic through the five tabulated triple products, up to 2e-13 of the largest of them. -/
theorem C105_time (r1 d1 r2 d2 t1 t5 t Y : ℝ) (r3 d3 : List ℝ)
    (hY : ∀ v ∈ List.zipWith (Line.gc r1 d1 r2 d2) r3 d3, |v| ≤ Y) (h : Line.Time r1 d1 r2 d2 r3 d3 t1 t5 = .ok t) :
    r3.length = 5 ∧ d3.length = 5 ∧ min t1 t5 ≤ t ∧ t ≤ max t1 t5 ∧
    ∃ g, PolyFun 4 g ∧ Through t1 t5 (List.zipWith (Line.gc r1 d1 r2 d2) r3 d3) g ∧ |g t| ≤ Y * (2 / 10 ^ 13) := by
  unfold Line.Time at h
  by_cases hl : r3.length ≠ 5 ∨ d3.length ≠ 5
  · rw [if_pos hl] at h; cases h
  rw [if_neg hl] at h
  push Not at hl
  refine ⟨hl.1, hl.2, ?_⟩
  set L := List.zipWith (Line.gc r1 d1 r2 d2) r3 d3 with hL
  have hlen : L.length = 5 := by rw [hL, List.length_zipWith, hl.1, hl.2]; rfl
  clear_value L
  obtain ⟨y0, y1, y2, y3, y4, rfl⟩ : ∃ y0 y1 y2 y3 y4, L = [y0, y1, y2, y3, y4] := by
    match L, hlen with
    | [a, b, c, d, e], _ => exact ⟨a, b, c, d, e, rfl⟩
  cases hn : Interp.NewLen5 t1 t5 [y0, y1, y2, y3, y4] with
  | error e => rw [hn] at h; cases h
  | ok d =>
    rw [hn] at h
    dsimp only at h
    cases hz : d.Zero false with
    | error e => rw [hz] at h; cases h
    | ok x =>
      rw [hz] at h
      cases h
      obtain ⟨z1, z2, z3⟩ := C26_zero_sound _ _ _ _ _ _ _ Y d hn hY false t hz
      obtain ⟨p1, p2⟩ := C24_len5_polynomial _ _ _ d hn
      exact ⟨z1, z2, d.InterpolateX, p1, p2, by simpa using z3⟩

theorem C105_length (r1 d1 r2 d2 t1 t5 : ℝ) (r3 d3 : List ℝ) (h : r3.length ≠ 5 ∨ d3.length ≠ 5) :
    Line.Time r1 d1 r2 d2 r3 d3 t1 t5 = .error .length := by
  unfold Line.Time; rw [if_pos h]

theorem gc_equator (r d : ℝ) : Line.gc 0 0 (π / 2) 0 r d = -tan d := by
  unfold Line.gc; simp

/-- C105: the hypotheses are met: two stars on the equator, a body crossing it with tan δ = -3/4, -1/4, 1/4, 3/4, 5/4 on five
days from t = 0 to t = 4 is on the equator at t = 3/2. -/
theorem C105_example : Line.Time 0 0 (π / 2) 0 [0, 0, 0, 0, 0]
    [arctan (-3 / 4), arctan (-1 / 4), arctan (1 / 4), arctan (3 / 4), arctan (5 / 4)] 0 4 = .ok (3 / 2) := by
  unfold Line.Time
  rw [if_neg (by simp)]
  simp only [List.zipWith_cons_cons, List.zipWith_nil_left, gc_equator, tan_arctan]
  obtain ⟨d, hd, hz⟩ := C26_linear 0 4 (-1 / 4) (-1 / 2) (by norm_num) (by norm_num) (by norm_num) (by norm_num [abs_le]) false
  rw [show [-(-3 / 4 : ℝ), -(-1 / 4), -(1 / 4), -(3 / 4), -(5 / 4)] =
    [-1 / 4 - 2 * (-1 / 2), -1 / 4 - -1 / 2, -1 / 4, -1 / 4 + -1 / 2, -1 / 4 + 2 * (-1 / 2)] by norm_num, hd]
  dsimp only
  rw [hz]
  norm_num

/-- C105, violation: if the body is on the line exactly at the central row of the table, `Time` reports no convergence,
whatever the motion. -/
theorem C105_centre_violation (a0 a1 a3 a4 t1 t5 : ℝ) (ht : t1 ≠ t5) :
    Line.Time 0 0 (π / 2) 0 [0, 0, 0, 0, 0] [a0, a1, 0, a3, a4] t1 t5 = .error (.interp .NoConverge) := by
  unfold Line.Time
  rw [if_neg (by simp)]
  simp only [List.zipWith_cons_cons, List.zipWith_nil_left, gc_equator, tan_zero, neg_zero]
  obtain ⟨d, hd, -, hz⟩ := C23_len5_violation t1 t5 (-tan a0) (-tan a1) (-tan a3) (-tan a4) ht false
  rw [hd]
  dsimp only
  rw [hz]

/-- The position angle, from north through east, of the second direction seen from the first. -/
def IsBearing (r d r' d' p : ℝ) : Prop :=
  ∃ ρ, 0 ≤ ρ ∧ inner ℝ (dir r' d') (north r d) = ρ * cos p ∧ inner ℝ (dir r' d') (east r) = ρ * sin p

theorem positionAngle_atan2 (r d r' d' : ℝ) (h : |d'| < π / 2) :
    IsBearing r d r' d' (atan2 (sin (r' - r)) (cos d * tan d' - sin d * cos (r' - r))) := by
  obtain ⟨h1, h2, -⟩ := C102_parallactic d' r d r' h
  refine ⟨cos (altitude d' d (r' - r)), ?_, ?_, ?_⟩
  · unfold altitude; exact cos_arcsin_nonneg _
  · rw [h1]; unfold Parallactic.ParallacticAngle; rw [mul_comm (tan d')]
  · rw [h2]; unfold Parallactic.ParallacticAngle; rw [mul_comm (tan d')]

theorem atan2_neg {y x : ℝ} (h : x ≠ 0 ∨ y ≠ 0) : ∃ k : ℤ, atan2 (-y) x = -atan2 y x + k * (2 * π) := by
  obtain ⟨p1, p2⟩ := atan2_polar y x
  have hp : 0 < sqrt (x ^ 2 + y ^ 2) := by
    apply sqrt_pos.2
    rcases h with h | h
    · positivity
    · positivity
  obtain ⟨k, hk⟩ := atan2_of_polar (t := -atan2 y x) hp
  rw [sin_neg, cos_neg, mul_neg, p1, p2] at hk
  exact ⟨k, hk⟩

/-- C106: the angle at the middle point is the difference of the position angles of the outer points. -/
theorem C106_angle (r1 d1 r2 d2 r3 d3 : ℝ) (h1 : |d1| < π / 2) (h3 : |d3| < π / 2) :
    ∃ p1 p3, IsBearing r2 d2 r1 d1 p1 ∧ IsBearing r2 d2 r3 d3 p3 ∧
      cos (Line.Angle r1 d1 r2 d2 r3 d3) = cos (p3 - p1) := by
  have q1 := positionAngle_atan2 r2 d2 r1 d1 h1
  have q3 := positionAngle_atan2 r2 d2 r3 d3 h3
  set p3 := atan2 (sin (r3 - r2)) (cos d2 * tan d3 - sin d2 * cos (r3 - r2)) with hp3
  refine ⟨-atan2 (sin (r2 - r1)) (cos d2 * tan d1 - sin d2 * cos (r2 - r1)), p3, ?_, q3, ?_⟩
  · obtain ⟨ρ, hρ, c, s⟩ := q1
    set x := cos d2 * tan d1 - sin d2 * cos (r2 - r1) with hx
    have hc : cos (r1 - r2) = cos (r2 - r1) := by rw [← cos_neg]; congr 1; ring
    have hs : sin (r1 - r2) = -sin (r2 - r1) := by rw [← sin_neg]; congr 1; ring
    rw [hc, ← hx, hs] at c s
    by_cases h0 : x ≠ 0 ∨ sin (r2 - r1) ≠ 0
    · obtain ⟨k, hk⟩ := atan2_neg h0
      rw [hk, cos_add_int_mul_two_pi] at c
      rw [hk, sin_add_int_mul_two_pi] at s
      exact ⟨ρ, hρ, c, s⟩
    · push Not at h0
      rw [h0.1, h0.2] at c s ⊢
      have : atan2 0 0 = 0 := by unfold atan2; exact Complex.arg_zero
      rw [neg_zero] at c s
      rw [this] at c s ⊢
      rw [neg_zero]
      exact ⟨ρ, hρ, c, s⟩
  · unfold Line.Angle
    dsimp only
    rw [← hp3]
    congr 1; ring

theorem polar_sq {r d r' d' p ρ : ℝ} (hc : inner ℝ (dir r' d') (north r d) = ρ * cos p) (hs : inner ℝ (dir r' d') (east r) = ρ * sin p) :
    ρ ^ 2 = ‖cross (dir r d) (dir r' d')‖ ^ 2 := by
  have e : ρ ^ 2 = (ρ * cos p) ^ 2 + (ρ * sin p) ^ 2 := by linear_combination (-ρ ^ 2) * sin_sq_add_cos_sq p
  rw [e, ← hc, ← hs, ← real_inner_self_eq_norm_sq, cross_dir]
  unfold dir north east
  rw [inner_vec, inner_vec, inner_vec]
  have e1 := sin_sq_add_cos_sq r
  have e2 := sin_sq_add_cos_sq d
  clear * - e1 e2
  generalize sin r = sr, cos r = cr, sin d = sd, cos d = cd, sin r' = sr', cos r' = cr', sin d' = sd', cos d' = cd' at *
  grind

/-- C106: the angle ψ of `AngleError` is the angle between the normals of the two lines, the supplement of the angle at the
middle point: its cosine is minus that of `Angle`. -/
theorem C106_angleError_partial (r1 d1 r2 d2 r3 d3 : ℝ) (h1 : |d1| < π / 2) (h3 : |d3| < π / 2)
    (n1 : cross (dir r2 d2) (dir r1 d1) ≠ 0) (n3 : cross (dir r2 d2) (dir r3 d3) ≠ 0) :
    (Line.AngleError r1 d1 r2 d2 r3 d3).1 = π - arccos (cos (Line.Angle r1 d1 r2 d2 r3 d3)) ∧
    (Line.AngleError r1 d1 r2 d2 r3 d3).1 =
      InnerProductGeometry.angle (cross (dir r1 d1) (dir r2 d2)) (cross (dir r2 d2) (dir r3 d3)) := by
  have hx : InnerProductGeometry.angle (cross (dir r1 d1) (dir r2 d2)) (cross (dir r2 d2) (dir r3 d3)) =
      (Line.AngleError r1 d1 r2 d2 r3 d3).1 := by
    unfold InnerProductGeometry.angle Line.AngleError
    dsimp only
    rw [cross_dir, cross_dir, inner_vec, norm_sq_vec, norm_sq_vec]
    congr 1
    congr 1
    · ring
    · congr 1 <;> congr 1 <;> ring
  refine ⟨?_, hx.symm⟩
  obtain ⟨p1, p3, ⟨ρ1, hρ1, c1, s1⟩, ⟨ρ3, hρ3, c3, s3⟩, hA⟩ := C106_angle r1 d1 r2 d2 r3 d3 h1 h3
  rw [hA, ← arccos_neg, ← hx]
  unfold InnerProductGeometry.angle
  congr 1
  have k1 := polar_sq c1 s1
  have k3 := polar_sq c3 s3
  have a1 : ‖cross (dir r2 d2) (dir r1 d1)‖ = ρ1 := by
    have := norm_nonneg (cross (dir r2 d2) (dir r1 d1))
    exact (sq_eq_sq₀ this hρ1).1 k1.symm
  have a3 : ‖cross (dir r2 d2) (dir r3 d3)‖ = ρ3 := by
    have := norm_nonneg (cross (dir r2 d2) (dir r3 d3))
    exact (sq_eq_sq₀ this hρ3).1 k3.symm
  have a1' : ‖cross (dir r1 d1) (dir r2 d2)‖ = ρ1 := by
    rw [← a1, cross_dir, cross_dir, norm_sq_vec, norm_sq_vec]; congr 1; ring
  have z1 : ρ1 ≠ 0 := by rw [← a1]; exact norm_ne_zero_iff.2 n1
  have z3 : ρ3 ≠ 0 := by rw [← a3]; exact norm_ne_zero_iff.2 n3
  rw [a1', a3, div_eq_iff (mul_ne_zero z1 z3), cos_sub,
    show -(cos p3 * cos p1 + sin p3 * sin p1) * (ρ1 * ρ3) = -((ρ3 * cos p3) * (ρ1 * cos p1) + (ρ3 * sin p3) * (ρ1 * sin p1)) by ring,
    ← c1, ← s1, ← c3, ← s3, cross_dir, cross_dir]
  unfold dir north east
  rw [inner_vec, inner_vec, inner_vec, inner_vec, inner_vec]
  have e1 := sin_sq_add_cos_sq r2
  have e2 := sin_sq_add_cos_sq d2
  clear * - e1 e2
  generalize sin r2 = sr, cos r2 = cr, sin d2 = sd, cos d2 = cd, sin r1 = sr', cos r1 = cr', sin d1 = sd', cos d1 = cd',
    sin r3 = sr3, cos r3 = cr3, sin d3 = sd3, cos d3 = cd3 at *
  grind

theorem atan2_zero_pos {y : ℝ} (h : 0 < y) : atan2 y 0 = π / 2 := by
  obtain ⟨p1, p2⟩ := atan2_polar y 0
  obtain ⟨r1, r2⟩ := atan2_range y 0
  have hp : 0 < sqrt (0 ^ 2 + y ^ 2) := sqrt_pos.2 (by positivity)
  have hc : cos (atan2 y 0) = 0 := by
    rcases mul_eq_zero.1 p1 with h' | h'
    · exact absurd h' hp.ne'
    · exact h'
  have hs : 0 < sin (atan2 y 0) := by
    by_contra hn
    nlinarith [not_lt.1 hn]
  have h0 : 0 < atan2 y 0 := by
    by_contra hn
    exact absurd (sin_nonpos_of_nonpos_of_neg_pi_le (not_lt.1 hn) r1.le) (not_le.2 hs)
  have := arccos_cos h0.le r2
  rw [← this, hc, arccos_zero]

/-- C106, violation: for three points in order on the equator `Angle` is 180° and the angle of `AngleError`, documented as the
same angle, is 0. -/
theorem C106_violation : Line.Angle (-(π / 4)) 0 0 0 (π / 4) 0 = π ∧ (Line.AngleError (-(π / 4)) 0 0 0 (π / 4) 0).1 = 0 := by
  constructor
  · unfold Line.Angle
    dsimp only
    simp only [sin_zero, cos_zero, tan_zero, zero_mul, mul_zero, sub_zero, sub_neg_eq_add, zero_add]
    rw [atan2_zero_pos (sin_pos_of_pos_of_lt_pi (by positivity) (by linarith [pi_pos]))]
    ring
  · unfold Line.AngleError
    dsimp only
    simp only [sin_zero, cos_zero, mul_zero, sub_zero, mul_one, one_mul, sin_neg, cos_neg, zero_mul, zero_add, add_zero, zero_sub,
      neg_neg]
    have : 0 < sin (π / 4) := sin_pos_of_pos_of_lt_pi (by positivity) (by linarith [pi_pos])
    rw [sqrt_mul_self this.le, div_self (by positivity), arccos_one]

theorem cos_arccos_dist {N p : V3} (hp : ‖p‖ = 1) (hN : N ≠ 0) : |inner ℝ N p| / ‖N‖ ≤ 1 := by
  rw [div_le_one (norm_pos_iff.2 hN)]
  have := abs_real_inner_le_norm N p
  rwa [hp, mul_one] at this

/-- The angular distance of a point from a great circle with normal N. -/
def IsDistance (N p : V3) (e : ℝ) : Prop :=
  0 ≤ e ∧ (∀ q : V3, q ≠ 0 → inner ℝ N q = 0 → e ≤ InnerProductGeometry.angle p q) ∧
    ∃ q : V3, q ≠ 0 ∧ inner ℝ N q = 0 ∧ e = InnerProductGeometry.angle p q

theorem error_sine (r1 d1 r2 d2 r0 d0 : ℝ) (hr : cos r0 ≠ 0) (hd : 0 < cos d0) :
    Line.Error r1 d1 r2 d2 r0 d0 = arcsin ((|cos r0| / cos r0) *
      (inner ℝ (cross (dir r1 d1) (dir r2 d2)) (dir r0 d0) / ‖cross (dir r1 d1) (dir r2 d2)‖)) := by
  unfold Line.Error
  dsimp only
  rw [cross_dir, norm_sq_vec]
  have e1 := sin_sq_add_cos_sq r0
  have e2 := sin_sq_add_cos_sq d0
  have ha : 0 < |cos r0| := abs_pos.2 hr
  have hs : sqrt (1 + tan r0 * tan r0 + tan d0 / cos r0 * (tan d0 / cos r0)) = 1 / (|cos r0| * cos d0) := by
    rw [show 1 + tan r0 * tan r0 + tan d0 / cos r0 * (tan d0 / cos r0) = (1 / (|cos r0| * cos d0)) ^ 2 from ?_, sqrt_sq (by positivity)]
    rw [tan_eq_sin_div_cos, tan_eq_sin_div_cos, div_pow, mul_pow, sq_abs]
    field_simp
    clear * - e1 e2
    generalize sin r0 = sr, cos r0 = cr, sin d0 = sd, cos d0 = cd at *
    grind
  rw [hs]
  congr 1
  unfold dir
  rw [inner_vec, tan_eq_sin_div_cos, tan_eq_sin_div_cos]
  field_simp

theorem angle_le_of {p q N : V3} (hp : ‖p‖ = 1) (hN : N ≠ 0) (hq : q ≠ 0) (h : inner ℝ N q = 0) :
    arcsin (|inner ℝ N p| / ‖N‖) ≤ InnerProductGeometry.angle p q := by
  have hn : 0 < ‖N‖ := norm_pos_iff.2 hN
  have hqn : 0 < ‖q‖ := norm_pos_iff.2 hq
  have hx : |inner ℝ N p| / ‖N‖ ≤ 1 := cos_arccos_dist hp hN
  set s := |inner ℝ N p| / ‖N‖ with hs
  have hs0 : 0 ≤ s := by positivity
  -- cos of the angle at most sqrt(1 - s^2)
  set w : V3 := p - (inner ℝ N p / ‖N‖ ^ 2) • N with hw
  have hwq : inner ℝ w q = inner ℝ p q := by
    rw [hw, inner_sub_left, inner_smul_left, h]; simp
  have hwn : ‖w‖ ^ 2 = 1 - s ^ 2 := by
    rw [← real_inner_self_eq_norm_sq, hw, inner_sub_left, inner_sub_right, inner_sub_right, inner_smul_left, inner_smul_right,
      inner_smul_left, inner_smul_right, real_inner_self_eq_norm_sq, real_inner_self_eq_norm_sq, hp, hs, div_pow, sq_abs,
      real_inner_comm N p]
    simp only [conj_trivial]
    field_simp
    ring
  have hle : inner ℝ p q / (‖p‖ * ‖q‖) ≤ sqrt (1 - s ^ 2) := by
    rw [hp, one_mul, div_le_iff₀ hqn, ← hwq, ← hwn, sqrt_sq (norm_nonneg _)]
    exact real_inner_le_norm w q
  unfold InnerProductGeometry.angle
  have hmon := Real.arccos_le_arccos hle
  refine le_trans (le_of_eq ?_) hmon
  rw [← cos_arcsin, arccos_cos (arcsin_nonneg.2 hs0) (by linarith [arcsin_le_pi_div_two s, pi_pos])]

theorem exists_orth (N : V3) : ∃ q : V3, q ≠ 0 ∧ inner ℝ N q = 0 := by
  rw [vec_self N]
  by_cases h : N 0 = 0 ∧ N 1 = 0
  · refine ⟨!₂[1, 0, 0], ?_, ?_⟩
    · intro h0
      have := congrFun (congrArg (fun v : V3 => v.ofLp) h0) 0
      simp at this
    · rw [inner_vec, h.1]; ring
  · refine ⟨!₂[-N 1, N 0, 0], ?_, ?_⟩
    · intro h0
      have a := congrFun (congrArg (fun v : V3 => v.ofLp) h0) 0
      have b := congrFun (congrArg (fun v : V3 => v.ofLp) h0) 1
      simp at a b
      exact h ⟨b, a⟩
    · rw [inner_vec]; ring

theorem isDistance_arcsin {p N : V3} (hp : ‖p‖ = 1) (hN : N ≠ 0) : IsDistance N p (arcsin (|inner ℝ N p| / ‖N‖)) := by
  have hn : 0 < ‖N‖ := norm_pos_iff.2 hN
  have hx : |inner ℝ N p| / ‖N‖ ≤ 1 := cos_arccos_dist hp hN
  refine ⟨arcsin_nonneg.2 (by positivity), fun q hq h => angle_le_of hp hN hq h, ?_⟩
  set s := |inner ℝ N p| / ‖N‖ with hs
  have hs0 : 0 ≤ s := by positivity
  set w : V3 := p - (inner ℝ N p / ‖N‖ ^ 2) • N with hw
  have hNw : inner ℝ N w = 0 := by
    rw [hw, inner_sub_right, inner_smul_right, real_inner_self_eq_norm_sq]; field_simp; ring
  have hpw : inner ℝ p w = 1 - s ^ 2 := by
    rw [hw, inner_sub_right, inner_smul_right, real_inner_self_eq_norm_sq, hp, hs, div_pow, sq_abs, real_inner_comm N p]
    field_simp
  have hwn : ‖w‖ ^ 2 = 1 - s ^ 2 := by
    rw [← real_inner_self_eq_norm_sq]
    conv_lhs => rw [hw]
    rw [inner_sub_left, inner_smul_left, hNw, hpw]; simp
  by_cases h0 : w = 0
  · obtain ⟨q, hq, hNq⟩ := exists_orth N
    refine ⟨q, hq, hNq, ?_⟩
    have hs1 : s = 1 := by
      rw [h0, norm_zero] at hwn
      nlinarith
    have hpq : inner ℝ p q = 0 := by
      have : p = (inner ℝ N p / ‖N‖ ^ 2) • N := sub_eq_zero.1 h0
      rw [this, inner_smul_left, hNq, mul_zero]
    unfold InnerProductGeometry.angle
    rw [hpq, zero_div, arccos_zero, hs1, arcsin_one]
  · refine ⟨w, h0, hNw, ?_⟩
    have hwp : 0 < ‖w‖ := norm_pos_iff.2 h0
    unfold InnerProductGeometry.angle
    rw [hp, one_mul, hpw, ← hwn, sq, mul_self_div_self, ← sqrt_sq hwp.le, hwn, ← cos_arcsin,
      arccos_cos (arcsin_nonneg.2 hs0) (by linarith [arcsin_le_pi_div_two s, pi_pos])]

theorem abs_arcsin (x : ℝ) : |arcsin x| = arcsin |x| := by
  rcases le_total 0 x with h | h
  · rw [abs_of_nonneg h, abs_of_nonneg (arcsin_nonneg.2 h)]
  · rw [abs_of_nonpos h, abs_of_nonpos (arcsin_nonpos.2 h), arcsin_neg]

/-- C107: the magnitude of `Error` is the angular distance of the point from the great circle through the other two: no point
of the circle is nearer, and one is that near. -/
theorem C107_error (r1 d1 r2 d2 r0 d0 : ℝ) (hr : cos r0 ≠ 0) (hd : |d0| < π / 2) (hN : cross (dir r1 d1) (dir r2 d2) ≠ 0) :
    IsDistance (cross (dir r1 d1) (dir r2 d2)) (dir r0 d0) |Line.Error r1 d1 r2 d2 r0 d0| := by
  have c0 : 0 < cos d0 := cos_pos_of_mem_Ioo (abs_lt.1 hd)
  rw [error_sine _ _ _ _ _ _ hr c0, abs_arcsin, abs_mul, abs_div, abs_abs, div_self (abs_ne_zero.2 hr), one_mul, abs_div, abs_norm]
  exact isDistance_arcsin (norm_dir _ _) hN

/-- C107: the error of `AngleError` is that of `Error` for the middle point and the line through the outer ones, up to sign;
for right ascensions of the first and fourth quadrant the signs agree too. -/
theorem C107_angleError (r1 d1 r2 d2 r3 d3 : ℝ) (hr : cos r2 ≠ 0) (hd : |d2| < π / 2) :
    |(Line.AngleError r1 d1 r2 d2 r3 d3).2| = |Line.Error r1 d1 r3 d3 r2 d2| ∧
    (0 < cos r2 → (Line.AngleError r1 d1 r2 d2 r3 d3).2 = Line.Error r1 d1 r3 d3 r2 d2) := by
  have c0 : 0 < cos d2 := cos_pos_of_mem_Ioo (abs_lt.1 hd)
  have e1 := sin_sq_add_cos_sq r2
  have e2 := sin_sq_add_cos_sq d2
  have hω : (Line.AngleError r1 d1 r2 d2 r3 d3).2 = arcsin (inner ℝ (cross (dir r1 d1) (dir r3 d3)) (dir r2 d2) /
      ‖cross (dir r1 d1) (dir r3 d3)‖) := by
    unfold Line.AngleError
    dsimp only
    rw [show cos d2 * cos r2 * (cos d2 * cos r2) + cos d2 * sin r2 * (cos d2 * sin r2) + sin d2 * sin d2 = 1 by
      linear_combination cos d2 ^ 2 * e1 + e2, sqrt_one, one_mul, cross_dir, norm_sq_vec]
    congr 1
    congr 1
    · unfold dir; rw [inner_vec]; ring
    · congr 1; ring
  rw [hω, error_sine _ _ _ _ _ _ hr c0]
  constructor
  · rw [abs_arcsin, abs_arcsin, abs_mul, abs_div |cos r2|, abs_abs, div_self (abs_ne_zero.2 hr), one_mul]
  · intro h
    rw [abs_of_pos h, div_self hr, one_mul]

/-- C107: the hypotheses are met and the error is not zero: a point 30° from the equator. -/
theorem C107_example : Line.Error 0 0 (π / 2) 0 0 (π / 6) = π / 6 := by
  have hN : cross (dir 0 0) (dir (π / 2) 0) = !₂[0, 0, 1] := by rw [cross_dir]; apply vec_eq <;> simp
  rw [error_sine _ _ _ _ _ _ (by simp) (by rw [cos_pi_div_six]; positivity), hN, norm_sq_vec]
  unfold dir
  rw [inner_vec]
  simp only [cos_zero, abs_one, div_one, zero_mul, one_mul, zero_add, sqrt_one, mul_zero]
  exact arcsin_sin (by linarith [pi_pos]) (by linarith [pi_pos])

end Verif.Props
