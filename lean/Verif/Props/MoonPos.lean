import Verif.Model.MoonPos
import Verif.Props.Nutation
import Verif.Props.Illum
import Mathlib.Tactic
/-
Packages moonposition: the position of the Moon, its node and perigee (C126, C127).
-/
namespace Verif.Props

open Real Verif.Go Verif.Model Verif.Model.Moonposition Verif.Lemmas

theorem mdeg_pos : 0 < deg := by unfold deg; positivity

/-- Weight of a row: 10000 times a bound of its factor. -/
def mweight (r : Row) : ℤ := if r.M = 0 then 10000 else if r.M = 1 ∨ r.M = -1 then 10500 else 11025

theorem mfac_le (r : Row) (E : ℝ) (h0 : 0 ≤ E) (h1 : E ≤ 1.05) : |r.fac E| * 10000 ≤ mweight r := by
  unfold Row.fac mweight
  by_cases a : r.M = 0
  · rw [if_pos a, if_pos a]; norm_num
  · by_cases b : r.M = 1 ∨ r.M = -1
    · rw [if_neg a, if_pos b, if_neg a, if_pos b, abs_of_nonneg h0]; push_cast; linarith
    · by_cases c : r.M = 2 ∨ r.M = -2
      · rw [if_neg a, if_neg b, if_pos c, if_neg a, if_neg b, abs_of_nonneg (by positivity)]; push_cast; nlinarith
      · rw [if_neg a, if_neg b, if_neg c, if_neg a, if_neg b]; norm_num

theorem mrow_bound (l : List Row) (cf : Row → ℤ) (g : Row → ℝ) (hg : ∀ r, |g r| ≤ 1) (E : ℝ) (h0 : 0 ≤ E) (h1 : E ≤ 1.05) :
    |(l.map fun r => (cf r : ℝ) * g r * r.fac E).sum| * 10000 ≤ ((l.map fun r => |cf r| * mweight r).sum : ℤ) := by
  induction l with
  | nil => simp
  | cons r l ih =>
    simp only [List.map_cons, List.sum_cons]
    push_cast at ih ⊢
    have a := abs_add_le ((cf r : ℝ) * g r * r.fac E) (l.map fun r => (cf r : ℝ) * g r * r.fac E).sum
    have b : |(cf r : ℝ) * g r * r.fac E| * 10000 ≤ |(cf r : ℝ)| * mweight r := by
      rw [abs_mul, abs_mul]
      have f := mfac_le r E h0 h1
      have c : |(cf r : ℝ)| * |g r| ≤ |(cf r : ℝ)| := mul_le_of_le_one_right (abs_nonneg _) (hg r)
      calc |(cf r : ℝ)| * |g r| * |r.fac E| * 10000 = (|(cf r : ℝ)| * |g r|) * (|r.fac E| * 10000) := by ring
        _ ≤ |(cf r : ℝ)| * (|r.fac E| * 10000) := mul_le_mul_of_nonneg_right c (by positivity)
        _ ≤ _ := mul_le_mul_of_nonneg_left f (abs_nonneg _)
    linarith

theorem ecc_bound (T : ℝ) (hT : |T| ≤ 20) : 0 ≤ ecc T ∧ ecc T ≤ 1.05 := by
  rw [abs_le] at hT
  unfold ecc hornerR
  simp only [List.foldr_cons, List.foldr_nil]
  constructor <;> nlinarith [hT.1, hT.2, sq_nonneg T]

theorem sumr_bound (T : ℝ) (hT : |T| ≤ 20) : |sumr T| ≤ 29730000 := by
  obtain ⟨h0, h1⟩ := ecc_bound T hT
  have := mrow_bound ta (·.r) (fun r => cos (r.arg T)) (fun r => abs_cos_le_one _) (ecc T) h0 h1
  have s : (ta.map fun r => |r.r| * mweight r).sum ≤ 297300000000 := by decide +kernel
  have s' : (((ta.map fun r => |r.r| * mweight r).sum : ℤ) : ℝ) ≤ ((297300000000 : ℤ) : ℝ) := Int.cast_le.2 s
  unfold sumr
  push_cast at s' this
  linarith

theorem sumb_bound (T : ℝ) (hT : |T| ≤ 20) : |sumb T| ≤ 6100000 := by
  obtain ⟨h0, h1⟩ := ecc_bound T hT
  have := mrow_bound tb (·.c) (fun r => sin (r.arg T)) (fun r => abs_sin_le_one _) (ecc T) h0 h1
  have s : (tb.map fun r => |r.c| * mweight r).sum ≤ 60890000000 := by decide +kernel
  have s' : (((tb.map fun r => |r.c| * mweight r).sum : ℤ) : ℝ) ≤ ((60890000000 : ℤ) : ℝ) := Int.cast_le.2 s
  unfold sumb
  push_cast at s' this
  dsimp only
  set S := (tb.map fun r => (r.c : ℝ) * sin (r.arg T) * r.fac (ecc T)).sum
  have hS : |S| ≤ 6089000 := by linarith
  rw [abs_le] at hS ⊢
  have p : ∀ x, -1 ≤ sin x ∧ sin x ≤ 1 := fun x => ⟨neg_one_le_sin x, sin_le_one x⟩
  have a1 := p (meanLon T)
  have a2 := p (313.45 * deg + 481266.484 * deg * T)
  have a3 := p (119.75 * deg + 131.849 * deg * T - argF T)
  have a4 := p (119.75 * deg + 131.849 * deg * T + argF T)
  have a5 := p (meanLon T - argM' T)
  have a6 := p (meanLon T + argM' T)
  constructor <;> linarith

theorem suml_bound (T : ℝ) (hT : |T| ≤ 20) : |suml T| ≤ 9230000 := by
  obtain ⟨h0, h1⟩ := ecc_bound T hT
  have := mrow_bound ta (·.c) (fun r => sin (r.arg T)) (fun r => abs_sin_le_one _) (ecc T) h0 h1
  have s : (ta.map fun r => |r.c| * mweight r).sum ≤ 92230000000 := by decide +kernel
  have s' : (((ta.map fun r => |r.c| * mweight r).sum : ℤ) : ℝ) ≤ ((92230000000 : ℤ) : ℝ) := Int.cast_le.2 s
  unfold suml
  push_cast at s' this
  dsimp only
  set S := (ta.map fun r => (r.c : ℝ) * sin (r.arg T) * r.fac (ecc T)).sum
  have hS : |S| ≤ 9223000 := by linarith
  rw [abs_le] at hS ⊢
  have p : ∀ x, -1 ≤ sin x ∧ sin x ≤ 1 := fun x => ⟨neg_one_le_sin x, sin_le_one x⟩
  have a1 := p (119.75 * deg + 131.849 * deg * T)
  have a2 := p (meanLon T - argF T)
  have a3 := p (53.09 * deg + 479264.29 * deg * T)
  constructor <;> linarith

/-- C126.  From year 0 to 4000 the latitude of the Moon is below 6.1 degrees, its distance between 355,270 and 414,731 km, and the
longitude within 9.23 degrees of the mean longitude. -/
theorem C126_bounds (jde : ℝ) (h : |J2000Century jde| ≤ 20) :
    |(Position jde).2.1| ≤ 6.1 * deg ∧ 355270 < (Position jde).2.2 ∧ (Position jde).2.2 < 414731 ∧
    |(Position jde).1 - mod1 (meanLon (J2000Century jde))| ≤ 9.23 * deg := by
  have d := mdeg_pos
  have a := sumb_bound _ h
  have b := abs_le.1 (sumr_bound _ h)
  have c := suml_bound _ h
  unfold Position
  dsimp only
  refine ⟨?_, by linarith [b.1], by linarith [b.2], ?_⟩
  · rw [abs_mul, abs_of_pos d, abs_mul, abs_of_pos (by norm_num : (0 : ℝ) < 1e-6)]
    nlinarith
  · rw [show ∀ x y : ℝ, x + y - x = y by intros; ring, abs_mul, abs_of_pos d, abs_mul, abs_of_pos (by norm_num : (0 : ℝ) < 1e-6)]
    nlinarith

/-- C126.  The parallax is the angle whose sine is the ratio of the equatorial radius to the distance, decreasing with distance. -/
theorem C126_parallax (Δ : ℝ) (h : 6378.14 ≤ Δ) :
    Δ * sin (Parallax Δ) = 6378.14 ∧ 0 < Parallax Δ ∧ Parallax Δ ≤ π / 2 ∧ ∀ Δ', Δ < Δ' → Parallax Δ' < Parallax Δ := by
  have hp : 0 < Δ := by linarith
  have q : 6378.14 / Δ ≤ 1 := by rw [div_le_one hp]; exact h
  have q0 : 0 < 6378.14 / Δ := by positivity
  unfold Parallax
  refine ⟨?_, arcsin_pos.2 q0, arcsin_le_pi_div_two _, fun Δ' h' => ?_⟩
  · rw [sin_arcsin (by linarith) q]; field_simp
  · have : 6378.14 / Δ' < 6378.14 / Δ := div_lt_div_of_pos_left (by norm_num) hp h'
    have : 0 < 6378.14 / Δ' := div_pos (by norm_num) (by linarith)
    exact strictMonoOn_arcsin ⟨by linarith, by linarith⟩ ⟨by linarith, q⟩ (by assumption)

/-- C126.  The parallax of the Moon is between 52.8 and 61.8 minutes of arc, from year 0 to 4000. -/
theorem C126_moon_parallax (jde : ℝ) (h : |J2000Century jde| ≤ 20) :
    52.8 / 60 * deg < Parallax (Position jde).2.2 ∧ Parallax (Position jde).2.2 < 61.8 / 60 * deg := by
  obtain ⟨-, b, c, -⟩ := C126_bounds jde h
  set Δ := (Position jde).2.2
  have hp : 0 < Δ := by linarith
  have q1 : 6378.14 / Δ < 6378.14 / 355270 := div_lt_div_of_pos_left (by norm_num) (by norm_num) b
  have q2 : 6378.14 / 414731 < 6378.14 / Δ := div_lt_div_of_pos_left (by norm_num) hp c
  have p1 := pi_gt_d4
  have p2 := pi_lt_d4
  unfold Parallax deg
  constructor
  · rw [lt_arcsin_iff_sin_lt' ⟨by nlinarith, by nlinarith⟩]
    have := sin_lt (x := 52.8 / 60 * (π / 180)) (by positivity)
    nlinarith
  · rw [arcsin_lt_iff_lt_sin' ⟨by nlinarith, by nlinarith⟩]
    have := sin_gt_sub_cube (x := 61.8 / 60 * (π / 180)) (by positivity)
    have e : (61.8 / 60 * (π / 180)) ^ 3 ≤ (0.018 : ℝ) ^ 3 := pow_le_pow_left₀ (by positivity) (by nlinarith) 3
    norm_num at e
    norm_num at q1
    nlinarith

theorem ta_head : ta = ⟨0, 0, 1, 0, 6288774, -20905355⟩ :: ta.tail := rfl

/-- C126.  The longitude is not always reduced to [0, 2π): there are instants (in January 2000, for one) when it is negative. -/
theorem C126_range_violation : ∃ jde, |J2000Century jde - 0.000295| ≤ 0.000005 ∧ (Position jde).1 < 0 := by
  have d := mdeg_pos
  have pd : π = 180 * deg := by unfold deg; ring
  have cont : Continuous meanLon := by unfold meanLon hornerR; simp only [List.foldr_cons, List.foldr_nil]; fun_prop
  have v1 : meanLon 0.00029 ≤ 2 * π := by
    rw [pd]; unfold meanLon hornerR; simp only [List.foldr_cons, List.foldr_nil]; nlinarith
  have v2 : 2 * π ≤ meanLon 0.0003 := by
    rw [pd]; unfold meanLon hornerR; simp only [List.foldr_cons, List.foldr_nil]; nlinarith
  obtain ⟨T, ⟨t1, t2⟩, hT⟩ := intermediate_value_Icc (by norm_num : (0.00029 : ℝ) ≤ 0.0003) cont.continuousOn ⟨v1, v2⟩
  refine ⟨2451545 + 36525 * T, ?_, ?_⟩
  · have : J2000Century (2451545 + 36525 * T) = T := by unfold J2000Century; ring
    rw [this, abs_le]; constructor <;> linarith
  have : J2000Century (2451545 + 36525 * T) = T := by unfold J2000Century; ring
  unfold Position
  rw [this]
  dsimp only
  have m0 : mod1 (meanLon T) = 0 := pmod_unique (by positivity) le_rfl (by positivity) 1 (by rw [hT]; push_cast; ring)
  rw [m0]
  have hs : suml T < 0 := by
    have hT20 : |T| ≤ 20 := by rw [abs_le]; constructor <;> linarith
    obtain ⟨h0, h1⟩ := ecc_bound T hT20
    have := mrow_bound ta.tail (·.c) (fun r => sin (r.arg T)) (fun r => abs_sin_le_one _) (ecc T) h0 h1
    have s : (ta.tail.map fun r => |r.c| * mweight r).sum ≤ 30000000000 := by decide +kernel
    have s' : (((ta.tail.map fun r => |r.c| * mweight r).sum : ℤ) : ℝ) ≤ ((30000000000 : ℤ) : ℝ) := Int.cast_le.2 s
    unfold suml
    rw [ta_head, List.map_cons, List.sum_cons]
    push_cast at s' this
    dsimp only
    set S := (ta.tail.map fun r => (r.c : ℝ) * sin (r.arg T) * r.fac (ecc T)).sum
    have hS : |S| ≤ 3000000 := by linarith
    rw [abs_le] at hS
    have p : ∀ x, -1 ≤ sin x ∧ sin x ≤ 1 := fun x => ⟨neg_one_le_sin x, sin_le_one x⟩
    have a1 := p (119.75 * deg + 131.849 * deg * T)
    have a2 := p (meanLon T - argF T)
    have a3 := p (53.09 * deg + 479264.29 * deg * T)
    have e : Row.arg ⟨0, 0, 1, 0, 6288774, -20905355⟩ T = argM' T := by unfold Row.arg; push_cast; ring
    have f : Row.fac ⟨0, 0, 1, 0, 6288774, -20905355⟩ (ecc T) = 1 := rfl
    rw [e, f]
    have b1 : 210 * deg ≤ argM' T ∧ argM' T ≤ 330 * deg := by
      unfold argM' hornerR
      simp only [List.foldr_cons, List.foldr_nil]
      have k : ∀ c lo hi : ℝ, lo ≤ c → c ≤ hi → lo * deg ≤ c * deg ∧ c * deg ≤ hi * deg := fun c lo hi h1 h2 =>
        ⟨by nlinarith, by nlinarith⟩
      have : ((((0 * T + -deg / 14712000) * T + deg / 69699) * T + 0.0087414 * deg) * T + 477198.8675055 * deg) * T + 134.9633964 * deg =
        ((((-T / 14712000 + 1 / 69699) * T + 0.0087414) * T + 477198.8675055) * T + 134.9633964) * deg := by ring
      rw [this]
      have u : 0 ≤ (-T / 14712000 + 1 / 69699) ∧ (-T / 14712000 + 1 / 69699) ≤ 1 := ⟨by linarith, by linarith⟩
      have u2 : 0 ≤ (-T / 14712000 + 1 / 69699) * T ∧ (-T / 14712000 + 1 / 69699) * T ≤ 1 := ⟨by nlinarith, by nlinarith⟩
      have u3 : 0 ≤ ((-T / 14712000 + 1 / 69699) * T + 0.0087414) * T ∧ ((-T / 14712000 + 1 / 69699) * T + 0.0087414) * T ≤ 1 :=
        ⟨by nlinarith, by nlinarith⟩
      exact k _ _ _ (by nlinarith) (by nlinarith)
    have sm : sin (argM' T) ≤ -(1 / 2) := by
      have c : cos (π / 3) ≤ cos |argM' T - 3 * π / 2| := by
        apply cos_le_cos_of_nonneg_of_le_pi (abs_nonneg _) (by linarith [pi_pos])
        rw [abs_le]; constructor <;> linarith [b1.1, b1.2]
      rw [cos_abs, cos_pi_div_three, show argM' T - 3 * π / 2 = argM' T - π / 2 - π by ring, cos_sub_pi, cos_sub_pi_div_two] at c
      linarith
    push_cast
    linarith
  rw [zero_add, mul_assoc]
  exact mul_neg_of_neg_of_pos hs (mul_pos (by norm_num) d)

theorem nodePoly_eq (T : ℝ) : nodePoly T = (nodeDeg T - (T ^ 3 / 467441 - T ^ 4 / 60616000)) * deg := by
  unfold nodePoly nodeDeg hornerR
  simp only [List.foldr_cons, List.foldr_nil]
  rw [show quo 1 467441 = 0 by decide, show quo (-1) 60616000 = 0 by decide]
  push_cast; ring

theorem perigeePoly_eq (T : ℝ) : perigeePoly T = (perigeeDeg T - (T ^ 4 / 18999000 - T ^ 3 / 80053)) * deg := by
  unfold perigeePoly perigeeDeg hornerR
  simp only [List.foldr_cons, List.foldr_nil]
  rw [show quo (-1) 80053 = 0 by decide, show quo 1 18999000 = 0 by decide]
  push_cast; ring

/-- C127.  Node and perigee are in [0, 2π). -/
theorem C127_range (jde : ℝ) : 0 ≤ Node jde ∧ Node jde < 2 * π ∧ 0 ≤ Perigee jde ∧ Perigee jde < 2 * π :=
  ⟨(mod1_eq _).1, (mod1_eq _).2.1, (mod1_eq _).1, (mod1_eq _).2.1⟩

/-- C72.  The cubic and quartic terms of the polynomials are missing at all times (quotients of integer constants), so that the node is
never right between 2000 and the year 8000, and off by more than .07 degree from the year 6000; likewise the perigee. -/
theorem C72_always_violation (jde : ℝ) (h0 : 0 < J2000Century jde) (h : J2000Century jde ≤ 60) (k : ℤ) :
    Node jde ≠ nodeDeg (J2000Century jde) * deg + k * (2 * π) ∧
    Perigee jde ≠ perigeeDeg (J2000Century jde) * deg + k * (2 * π) ∧
    (40 ≤ J2000Century jde → 0.07 * deg ≤ |Node jde - (nodeDeg (J2000Century jde) * deg + k * (2 * π))|) := by
  have d := mdeg_pos
  have pd : 2 * π = 360 * deg := by unfold deg; ring
  set T := J2000Century jde with hT
  have t3 : T ^ 3 ≤ 60 ^ 3 := pow_le_pow_left₀ h0.le h 3
  have t3' : 0 < T ^ 3 := by positivity
  have e4 : T ^ 4 = T ^ 3 * T := by ring
  have key : ∀ (x : ℝ) (m : ℤ), |x| ≤ 100 → (m ≠ 0 → 100 ≤ |x + 360 * m|) := by
    intro x m hx hm
    have : (1 : ℝ) ≤ |(m : ℝ)| := by exact_mod_cast Int.one_le_abs hm
    have := abs_sub_abs_le_abs_sub (360 * (m : ℝ)) (-x)
    rw [abs_mul, abs_of_pos (by norm_num : (0 : ℝ) < 360), abs_neg, sub_neg_eq_add, add_comm (360 * (m : ℝ))] at this
    linarith
  have n1 : ∃ m : ℤ, Node jde - (nodeDeg T * deg + k * (2 * π)) = (-(T ^ 3 / 467441 - T ^ 4 / 60616000) + 360 * m) * deg := by
    obtain ⟨-, -, j, hj⟩ := mod1_eq (nodePoly T)
    rw [pd] at *
    refine ⟨-j - k, ?_⟩
    have : Node jde = nodePoly T - j * (360 * deg) := by change mod1 (nodePoly (J2000Century jde)) = _; rw [← hT]; linarith
    rw [this, nodePoly_eq]; push_cast; ring
  have n2 : ∃ m : ℤ, Perigee jde - (perigeeDeg T * deg + k * (2 * π)) = (-(T ^ 4 / 18999000 - T ^ 3 / 80053) + 360 * m) * deg := by
    obtain ⟨-, -, j, hj⟩ := mod1_eq (perigeePoly T)
    rw [pd] at *
    refine ⟨-j - k, ?_⟩
    have : Perigee jde = perigeePoly T - j * (360 * deg) := by change mod1 (perigeePoly (J2000Century jde)) = _; rw [← hT]; linarith
    rw [this, perigeePoly_eq]; push_cast; ring
  obtain ⟨m1, n1⟩ := n1
  obtain ⟨m2, n2⟩ := n2
  have x1 : 0 < T ^ 3 / 467441 - T ^ 4 / 60616000 ∧ T ^ 3 / 467441 - T ^ 4 / 60616000 ≤ 100 := by
    rw [e4]; constructor <;> nlinarith
  have x2 : 0 < T ^ 3 / 80053 - T ^ 4 / 18999000 ∧ T ^ 3 / 80053 - T ^ 4 / 18999000 ≤ 100 := by
    rw [e4]; constructor <;> nlinarith
  have z1 := key (-(T ^ 3 / 467441 - T ^ 4 / 60616000)) m1 (by rw [abs_neg, abs_of_pos x1.1]; exact x1.2)
  have z2 := key (-(T ^ 4 / 18999000 - T ^ 3 / 80053)) m2 (by rw [neg_sub, abs_of_pos x2.1]; exact x2.2)
  refine ⟨fun c => ?_, fun c => ?_, fun c => ?_⟩
  · rw [c, sub_self] at n1
    have n1 := (mul_eq_zero.1 n1.symm).resolve_right d.ne'
    by_cases hm : m1 = 0
    · subst hm; push_cast at n1; linarith [x1.1]
    · have := z1 hm; rw [n1] at this; norm_num at this
  · rw [c, sub_self] at n2
    have n2 := (mul_eq_zero.1 n2.symm).resolve_right d.ne'
    by_cases hm : m2 = 0
    · subst hm; push_cast at n2; linarith [x2.1]
    · have := z2 hm; rw [n2] at this; norm_num at this
  · rw [n1, abs_mul, abs_of_pos d]
    apply mul_le_mul_of_nonneg_right _ d.le
    by_cases hm : m1 = 0
    · subst hm
      push_cast
      rw [mul_zero, add_zero, abs_neg, abs_of_pos x1.1, e4]
      have : (40 : ℝ) ^ 3 ≤ T ^ 3 := pow_le_pow_left₀ (by norm_num) c 3
      nlinarith
    · linarith [z1 hm]

/-- C127.  The true node is within 1.97 degrees of the mean node. -/
theorem C127_true (jde : ℝ) : |TrueNode jde - Node jde| ≤ 1.9682 * deg := by
  have d := mdeg_pos
  unfold TrueNode
  dsimp only
  rw [show ∀ x y : ℝ, x + y - x = y by intros; ring, abs_mul, abs_of_pos d]
  apply mul_le_mul_of_nonneg_right _ d.le
  have p : ∀ x, -1 ≤ sin x ∧ sin x ≤ 1 := fun x => ⟨neg_one_le_sin x, sin_le_one x⟩
  set T := J2000Century jde
  have a1 := p (2 * (argD T - argF T))
  have a2 := p (argM T)
  have a3 := p (2 * argD T)
  have a4 := p (2 * argF T)
  have a5 := p (2 * (argM' T - argF T))
  rw [abs_le]; constructor <;> linarith

/-- C127.  The true node is not reduced to [0, 2π): it is negative at the instant of 2025 when the mean node passes 0. -/
theorem C127_true_range_violation : ∃ jde, |J2000Century jde - 0.25078| ≤ 0.00001 ∧ Node jde = 0 ∧ TrueNode jde < 0 := by
  have d := mdeg_pos
  have pd : π = 180 * deg := by unfold deg; ring
  have ev : ∀ T, nodePoly T = (125.0445479 - 1934.1362891 * T + 0.0020754 * T ^ 2) * deg := by
    intro T; rw [nodePoly_eq]; unfold nodeDeg; ring
  have cont : Continuous nodePoly := by
    rw [show nodePoly = fun T => (125.0445479 - 1934.1362891 * T + 0.0020754 * T ^ 2) * deg from funext ev]; fun_prop
  have v1 : -(2 * π) ≤ nodePoly 0.25078 := by rw [ev, pd]; nlinarith
  have v2 : nodePoly 0.25079 ≤ -(2 * π) := by rw [ev, pd]; nlinarith
  obtain ⟨T, ⟨t1, t2⟩, hT⟩ := intermediate_value_Icc' (by norm_num : (0.25078 : ℝ) ≤ 0.25079) cont.continuousOn ⟨v2, v1⟩
  have hJ : J2000Century (2451545 + 36525 * T) = T := by unfold J2000Century; ring
  have hN : Node (2451545 + 36525 * T) = 0 := by
    change mod1 (nodePoly (J2000Century _)) = 0; rw [hJ]; exact pmod_unique (by positivity) le_rfl (by positivity) (-1) (by rw [hT]; push_cast; ring)
  refine ⟨2451545 + 36525 * T, ?_, hN, ?_⟩
  · rw [hJ, abs_le]; constructor <;> linarith
  unfold TrueNode
  rw [hJ, hN]
  dsimp only
  have p : ∀ x, -1 ≤ sin x ∧ sin x ≤ 1 := fun x => ⟨neg_one_le_sin x, sin_le_one x⟩
  have a2 := p (argM T)
  have a3 := p (2 * argD T)
  have a4 := p (2 * argF T)
  have a5 := p (2 * (argM' T - argF T))
  have e : argD T - argF T = (204.5780971 - 37934.9061199 * T + 0.001772 * T ^ 2 + (T ^ 3 / 545868 + T ^ 3 / 3526000) - (T ^ 4 / 113065000 + T ^ 4 / 863310000)) * deg := by
    unfold argD argF hornerR; simp only [List.foldr_cons, List.foldr_nil]; ring
  have s2 : 0 ≤ T ^ 2 ∧ T ^ 2 ≤ 1 := ⟨by positivity, by nlinarith⟩
  have s3 : 0 ≤ T ^ 3 ∧ T ^ 3 ≤ 1 := ⟨by positivity, pow_le_one₀ (by linarith) (by linarith)⟩
  have s4 : 0 ≤ T ^ 4 ∧ T ^ 4 ≤ 1 := ⟨by positivity, pow_le_one₀ (by linarith) (by linarith)⟩
  have b : -9309.7 * deg ≤ argD T - argF T ∧ argD T - argF T ≤ -9308 * deg := by
    rw [e]; constructor <;> apply mul_le_mul_of_nonneg_right _ d.le <;> linarith [s2.1, s2.2, s3.1, s3.2, s4.1, s4.2]
  have sm : 1 / 2 ≤ sin (2 * (argD T - argF T)) := by
    have c : cos (π / 3) ≤ cos |2 * (argD T - argF T) - π / 2 + (52 : ℕ) * (2 * π)| := by
      apply cos_le_cos_of_nonneg_of_le_pi (abs_nonneg _) (by linarith [pi_pos])
      rw [abs_le]; push_cast; constructor <;> linarith [b.1, b.2]
    rw [cos_abs, cos_pi_div_three, cos_add_nat_mul_two_pi, cos_sub_pi_div_two] at c
    linarith
  have : (-1.4979 * sin (2 * (argD T - argF T)) + -0.15 * sin (argM T) + -0.1226 * sin (2 * argD T) +
    0.1176 * sin (2 * argF T) + -0.0801 * sin (2 * (argM' T - argF T))) < 0 := by linarith
  nlinarith

/-- The instants 1992 April 12 and J2000 are within the hypotheses of the bounds. -/
example : |J2000Century 2448724.5| ≤ 1 ∧ |J2000Century 2451545| ≤ 20 := by
  unfold J2000Century; constructor <;> rw [abs_le] <;> norm_num

end Verif.Props
