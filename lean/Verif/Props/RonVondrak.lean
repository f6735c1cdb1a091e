import Verif.Model.RonVondrak
import Verif.Props.Apparent
import Verif.Lemmas.PolyQ
import Verif.Lemmas.TrigNum
import Verif.Lemmas.LaurentShift
/-
C177: the ways to compute the aberration of light agree.
-/
namespace Verif.Props

open Real Verif.Go Verif.Spec Verif.Model Verif.Model.Nutation Verif.Model.Apparent Verif.Lemmas

/-! Numbers -/

theorem rv_eps : |cos (84381.448 * sec) - 0.917482| ≤ 1e-6 ∧ |sin (84381.448 * sec) - 0.397777| ≤ 1e-6 := by
  obtain ⟨d0, d1⟩ := deg_num
  have hs : sec = deg / 3600 := by unfold sec deg; ring
  obtain ⟨x, hx⟩ : ∃ x, x = 84381.448 * sec := ⟨_, rfl⟩
  have h0 : 0.4090928 ≤ x := by rw [hx, hs]; norm_num at *; linarith
  have h1 : x ≤ 0.4090929 := by rw [hx, hs]; norm_num at *; linarith
  obtain ⟨t1, t2⟩ := PolyQ.taylor8 (x := x) (by rw [abs_le]; norm_num at *; constructor <;> linarith)
  rw [← hx]
  rw [abs_le] at t1 t2
  have p2 : 0.4090928 ^ 2 ≤ x ^ 2 := by gcongr
  have p2' : x ^ 2 ≤ 0.4090929 ^ 2 := by gcongr
  have p3 : 0.4090928 ^ 3 ≤ x ^ 3 := by gcongr
  have p3' : x ^ 3 ≤ 0.4090929 ^ 3 := by gcongr
  have p4 : 0.4090928 ^ 4 ≤ x ^ 4 := by gcongr
  have p4' : x ^ 4 ≤ 0.4090929 ^ 4 := by gcongr
  have p5 : 0.4090928 ^ 5 ≤ x ^ 5 := by gcongr
  have p5' : x ^ 5 ≤ 0.4090929 ^ 5 := by gcongr
  have p6 : 0.4090928 ^ 6 ≤ x ^ 6 := by gcongr
  have p6' : x ^ 6 ≤ 0.4090929 ^ 6 := by gcongr
  have p7 : 0.4090928 ^ 7 ≤ x ^ 7 := by gcongr
  have p7' : x ^ 7 ≤ 0.4090929 ^ 7 := by gcongr
  have p8 : 0.4090928 ^ 8 ≤ x ^ 8 := by gcongr
  have p8' : x ^ 8 ≤ 0.4090929 ^ 8 := by gcongr
  rw [abs_le, abs_le]
  norm_num at *
  refine ⟨⟨?_, ?_⟩, ?_, ?_⟩ <;> linarith

theorem rv_peri : |sin (102.93735 * deg) - 0.974615| ≤ 2e-6 ∧ |cos (102.93735 * deg) + 0.223885| ≤ 2e-6 := by
  obtain ⟨d0, d1⟩ := deg_num
  obtain ⟨x, hx⟩ : ∃ x, x = 12.93735 * deg := ⟨_, rfl⟩
  have e : 102.93735 * deg = x + π / 2 := by rw [hx]; unfold deg; ring
  have h0 : 0.225799 ≤ x := by rw [hx]; norm_num at *; linarith
  have h1 : x ≤ 0.2258 := by rw [hx]; norm_num at *; linarith
  obtain ⟨t1, t2⟩ := PolyQ.taylor8 (x := x) (by rw [abs_le]; norm_num at *; constructor <;> linarith)
  rw [e, sin_add_pi_div_two, cos_add_pi_div_two]
  rw [abs_le] at t1 t2
  have p2 : 0.225799 ^ 2 ≤ x ^ 2 := by gcongr
  have p2' : x ^ 2 ≤ 0.2258 ^ 2 := by gcongr
  have p3 : 0.225799 ^ 3 ≤ x ^ 3 := by gcongr
  have p3' : x ^ 3 ≤ 0.2258 ^ 3 := by gcongr
  have p4 : 0.225799 ^ 4 ≤ x ^ 4 := by gcongr
  have p4' : x ^ 4 ≤ 0.2258 ^ 4 := by gcongr
  have p5 : 0.225799 ^ 5 ≤ x ^ 5 := by gcongr
  have p5' : x ^ 5 ≤ 0.2258 ^ 5 := by gcongr
  have p6 : 0.225799 ^ 6 ≤ x ^ 6 := by gcongr
  have p6' : x ^ 6 ≤ 0.2258 ^ 6 := by gcongr
  have p7 : 0.225799 ^ 7 ≤ x ^ 7 := by gcongr
  have p7' : x ^ 7 ≤ 0.2258 ^ 7 := by gcongr
  have p8 : 0.225799 ^ 8 ≤ x ^ 8 := by gcongr
  have p8' : x ^ 8 ≤ 0.2258 ^ 8 := by gcongr
  rw [abs_le, abs_le]
  norm_num at *
  refine ⟨⟨?_, ?_⟩, ?_, ?_⟩ <;> linarith

/-- The constant of aberration in the unit of the table. -/
theorem rv_kappa : |kappa * lightC - 1720453| ≤ 1 := by
  obtain ⟨d0, d1⟩ := deg_num
  have : kappa * lightC = 20.49552 * 17314463350 / 3600 * deg := by unfold kappa lightC deg; ring
  rw [this, abs_le]
  norm_num at *
  constructor <;> linarith

/-! The terms in the longitude of the Earth -/

theorem seven {d0 d1 d2 d3 d4 d5 d6 b0 b1 b2 b3 b4 b5 b6 x1 x2 x3 x4 x5 x6 : ℝ} (h0 : |d0| ≤ b0) (h1 : |d1| ≤ b1) (h2 : |d2| ≤ b2) (h3 : |d3| ≤ b3)
    (h4 : |d4| ≤ b4) (h5 : |d5| ≤ b5) (h6 : |d6| ≤ b6) (k1 : |x1| ≤ 1) (k2 : |x2| ≤ 1) (k3 : |x3| ≤ 1) (k4 : |x4| ≤ 1) (k5 : |x5| ≤ 1) (k6 : |x6| ≤ 1) :
    |d0 + d1 * x1 + d2 * x2 + d3 * x3 + d4 * x4 + d5 * x5 + d6 * x6| ≤ b0 + b1 + b2 + b3 + b4 + b5 + b6 := by
  have m : ∀ d x b : ℝ, |d| ≤ b → |x| ≤ 1 → |d * x| ≤ b := fun d x b hd hx => by
    rw [abs_mul]; nlinarith [abs_nonneg d, abs_nonneg x]
  have m1 := m _ _ _ h1 k1
  have m2 := m _ _ _ h2 k2
  have m3 := m _ _ _ h3 k3
  have m4 := m _ _ _ h4 k4
  have m5 := m _ _ _ h5 k5
  have m6 := m _ _ _ h6 k6
  rw [abs_le] at *
  constructor <;> linarith

/-- The velocity from the equation of the centre to the second order, first component. -/
theorem rv_main_x {u s c : ℝ} (hs : |s - 0.974615| ≤ 2e-6) (hc : |c + 0.223885| ≤ 2e-6) (h1 : s ^ 2 + c ^ 2 = 1) :
    |1720453 * (-(sin u + (0.0334161 * (sin u * c - cos u * s) + 0.00034894 * (2 * (sin u * c - cos u * s) * (cos u * c + sin u * s))) * cos u
        - 0.0334161 ^ 2 * (sin u * c - cos u * s) ^ 2 / 2 * sin u) - 0.016708634 * s)
      - (-1719914 * sin u - 25 * cos u + (6434 * sin (2 * u) + 28007 * cos (2 * u)) + (486 * sin (3 * u) - 236 * cos (3 * u)))| ≤ 40 := by
  have hu := sin_sq_add_cos_sq u
  obtain ⟨s2, hs2⟩ : ∃ s2, s2 = 2 * s * c := ⟨_, rfl⟩
  obtain ⟨c2, hc2⟩ : ∃ c2, c2 = 1 - 2 * s ^ 2 := ⟨_, rfl⟩
  have bs2 : |s2 + 0.4364| ≤ 2e-5 := by rw [hs2]; rw [abs_le] at *; norm_num at *; constructor <;> nlinarith
  have bc2 : |c2 + 0.89975| ≤ 2e-5 := by rw [hc2]; rw [abs_le] at *; norm_num at *; constructor <;> nlinarith
  have i1 : (0.0334161 * (sin u * c - cos u * s) + 0.00034894 * (2 * (sin u * c - cos u * s) * (cos u * c + sin u * s))) * cos u =
      0.0334161 / 2 * (sin (2 * u) * c - cos (2 * u) * s - s) + 0.00034894 / 2 * (sin (3 * u) * c2 - cos (3 * u) * s2 + sin u * c2 - cos u * s2) := by
    rw [sin_two_mul, cos_two_mul, sin_three_mul, cos_three_mul, hs2, hc2]
    grind
  have i2 : (sin u * c - cos u * s) ^ 2 * sin u = sin u / 2 - ((sin (3 * u) * c2 - cos (3 * u) * s2) + (s2 * cos u - c2 * sin u)) / 4 := by
    rw [sin_three_mul, cos_three_mul, hs2, hc2]
    grind
  rw [i1]
  have e : 0.0334161 ^ 2 * (sin u * c - cos u * s) ^ 2 / 2 * sin u = 0.0334161 ^ 2 / 2 * ((sin u * c - cos u * s) ^ 2 * sin u) := by ring
  rw [e, i2]
  clear i1 i2 e hs2 hc2 hu h1
  have k := seven (d0 := 1720453 * (0.0334161 / 2 - 0.016708634) * s)
    (d1 := 1720453 * (-1 - 0.00034894 / 2 * c2 + 0.0334161 ^ 2 / 2 * (1 / 2 + c2 / 4)) + 1719914)
    (d2 := 1720453 * (0.00034894 / 2 * s2 - 0.0334161 ^ 2 / 8 * s2) + 25)
    (d3 := 1720453 * (-0.0334161 / 2 * c) - 6434) (d4 := 1720453 * (0.0334161 / 2 * s) - 28007)
    (d5 := 1720453 * (-(0.00034894 / 2 + 0.0334161 ^ 2 / 8) * c2) - 486) (d6 := 1720453 * ((0.00034894 / 2 + 0.0334161 ^ 2 / 8) * s2) + 236)
    (b0 := 2) (b1 := 8) (b2 := 4) (b3 := 4) (b4 := 12) (b5 := 1) (b6 := 1)
    (by rw [abs_le] at *; norm_num at *; constructor <;> linarith) (by rw [abs_le] at *; norm_num at *; constructor <;> linarith)
    (by rw [abs_le] at *; norm_num at *; constructor <;> linarith) (by rw [abs_le] at *; norm_num at *; constructor <;> linarith)
    (by rw [abs_le] at *; norm_num at *; constructor <;> linarith) (by rw [abs_le] at *; norm_num at *; constructor <;> linarith)
    (by rw [abs_le] at *; norm_num at *; constructor <;> linarith)
    (abs_sin_le_one u) (abs_cos_le_one u) (abs_sin_le_one (2 * u)) (abs_cos_le_one (2 * u)) (abs_sin_le_one (3 * u)) (abs_cos_le_one (3 * u))
  refine le_trans (le_of_eq ?_) (k.trans (by norm_num))
  congr 1
  ring

/-- The second and third components, before the factor cos ε or sin ε; t1, …, are the terms of the table. -/
theorem rv_main_yz {u s c f : ℝ} {t1 t2 t3 t4 t5 t6 : ℝ} (hs : |s - 0.974615| ≤ 2e-6) (hc : |c + 0.223885| ≤ 2e-6) (h1 : s ^ 2 + c ^ 2 = 1)
    (hf : (f = 0.917482 ∧ t1 = 25 ∧ t2 = 1578089 ∧ t3 = 25697 ∧ t4 = -5904 ∧ t5 = -216 ∧ t6 = -446) ∨
      (f = 0.397777 ∧ t1 = 10 ∧ t2 = 684185 ∧ t3 = 11141 ∧ t4 = -2559 ∧ t5 = -94 ∧ t6 = -193)) :
    |1720453 * f * (0.016708634 * c + (cos u - (0.0334161 * (sin u * c - cos u * s) + 0.00034894 * (2 * (sin u * c - cos u * s) * (cos u * c + sin u * s))) * sin u
        - 0.0334161 ^ 2 * (sin u * c - cos u * s) ^ 2 / 2 * cos u))
      - (t1 * sin u + t2 * cos u + (t3 * sin (2 * u) + t4 * cos (2 * u)) + (t5 * sin (3 * u) + t6 * cos (3 * u)))| ≤ 40 := by
  have hu := sin_sq_add_cos_sq u
  obtain ⟨s2, hs2⟩ : ∃ s2, s2 = 2 * s * c := ⟨_, rfl⟩
  obtain ⟨c2, hc2⟩ : ∃ c2, c2 = 1 - 2 * s ^ 2 := ⟨_, rfl⟩
  have bs2 : |s2 + 0.4364| ≤ 2e-5 := by rw [hs2]; rw [abs_le] at *; norm_num at *; constructor <;> nlinarith
  have bc2 : |c2 + 0.89975| ≤ 2e-5 := by rw [hc2]; rw [abs_le] at *; norm_num at *; constructor <;> nlinarith
  have i1 : (0.0334161 * (sin u * c - cos u * s) + 0.00034894 * (2 * (sin u * c - cos u * s) * (cos u * c + sin u * s))) * sin u =
      0.0334161 / 2 * (c - (cos (2 * u) * c + sin (2 * u) * s)) + 0.00034894 / 2 * ((cos u * c2 + sin u * s2) - (cos (3 * u) * c2 + sin (3 * u) * s2)) := by
    rw [sin_two_mul, cos_two_mul, sin_three_mul, cos_three_mul, hs2, hc2]
    grind
  have i2 : (sin u * c - cos u * s) ^ 2 * cos u = cos u / 2 - ((cos (3 * u) * c2 + sin (3 * u) * s2) + (cos u * c2 + sin u * s2)) / 4 := by
    rw [sin_three_mul, cos_three_mul, hs2, hc2]
    grind
  rw [i1]
  have e : 0.0334161 ^ 2 * (sin u * c - cos u * s) ^ 2 / 2 * cos u = 0.0334161 ^ 2 / 2 * ((sin u * c - cos u * s) ^ 2 * cos u) := by ring
  rw [e, i2]
  clear i1 i2 e hs2 hc2 hu h1
  have k := seven (d0 := 1720453 * f * ((0.016708634 - 0.0334161 / 2) * c))
    (d1 := 1720453 * f * ((-0.00034894 / 2 + 0.0334161 ^ 2 / 8) * s2) - t1)
    (d2 := 1720453 * f * (1 - 0.00034894 / 2 * c2 - 0.0334161 ^ 2 / 4 + 0.0334161 ^ 2 / 8 * c2) - t2)
    (d3 := 1720453 * f * (0.0334161 / 2 * s) - t3) (d4 := 1720453 * f * (0.0334161 / 2 * c) - t4)
    (d5 := 1720453 * f * ((0.00034894 / 2 + 0.0334161 ^ 2 / 8) * s2) - t5) (d6 := 1720453 * f * ((0.00034894 / 2 + 0.0334161 ^ 2 / 8) * c2) - t6)
    (b0 := 2) (b1 := 2) (b2 := 10) (b3 := 10) (b4 := 2) (b5 := 1) (b6 := 1)
    (by rcases hf with ⟨rfl, rfl, rfl, rfl, rfl, rfl, rfl⟩ | ⟨rfl, rfl, rfl, rfl, rfl, rfl, rfl⟩ <;> rw [abs_le] at * <;> norm_num at * <;> constructor <;> linarith)
    (by rcases hf with ⟨rfl, rfl, rfl, rfl, rfl, rfl, rfl⟩ | ⟨rfl, rfl, rfl, rfl, rfl, rfl, rfl⟩ <;> rw [abs_le] at * <;> norm_num at * <;> constructor <;> linarith)
    (by rcases hf with ⟨rfl, rfl, rfl, rfl, rfl, rfl, rfl⟩ | ⟨rfl, rfl, rfl, rfl, rfl, rfl, rfl⟩ <;> rw [abs_le] at * <;> norm_num at * <;> constructor <;> linarith)
    (by rcases hf with ⟨rfl, rfl, rfl, rfl, rfl, rfl, rfl⟩ | ⟨rfl, rfl, rfl, rfl, rfl, rfl, rfl⟩ <;> rw [abs_le] at * <;> norm_num at * <;> constructor <;> linarith)
    (by rcases hf with ⟨rfl, rfl, rfl, rfl, rfl, rfl, rfl⟩ | ⟨rfl, rfl, rfl, rfl, rfl, rfl, rfl⟩ <;> rw [abs_le] at * <;> norm_num at * <;> constructor <;> linarith)
    (by rcases hf with ⟨rfl, rfl, rfl, rfl, rfl, rfl, rfl⟩ | ⟨rfl, rfl, rfl, rfl, rfl, rfl, rfl⟩ <;> rw [abs_le] at * <;> norm_num at * <;> constructor <;> linarith)
    (by rcases hf with ⟨rfl, rfl, rfl, rfl, rfl, rfl, rfl⟩ | ⟨rfl, rfl, rfl, rfl, rfl, rfl, rfl⟩ <;> rw [abs_le] at * <;> norm_num at * <;> constructor <;> linarith)
    (abs_sin_le_one u) (abs_cos_le_one u) (abs_sin_le_one (2 * u)) (abs_cos_le_one (2 * u)) (abs_sin_le_one (3 * u)) (abs_cos_le_one (3 * u))
  refine le_trans (le_of_eq ?_) (k.trans (by norm_num))
  congr 1
  ring

/-! The other terms of the table -/

set_option maxHeartbeats 4000000 in
theorem rv_rest_x (r : RV) : |(rvSum r).1 - (-1719914 * sin r.L3 - 25 * cos r.L3 + (6434 * sin (2 * r.L3) + 28007 * cos (2 * r.L3)) + (486 * sin (3 * r.L3) - 236 * cos (3 * r.L3)))| ≤ 2044 + 259 * |r.T| := by
  have sc : ∀ T A : ℝ, |T * sin A| ≤ |T| ∧ |T * cos A| ≤ |T| := fun T A => by
    rw [abs_mul, abs_mul]
    exact ⟨mul_le_of_le_one_right (abs_nonneg _) (abs_sin_le_one _), mul_le_of_le_one_right (abs_nonneg _) (abs_cos_le_one _)⟩
  have sc1 : ∀ A : ℝ, |sin A| ≤ 1 ∧ |cos A| ≤ 1 := fun A => ⟨abs_sin_le_one _, abs_cos_le_one _⟩
  obtain ⟨s1, c1⟩ := sc r.T (r.L3)
  obtain ⟨s2, c2⟩ := sc r.T (2 * r.L3)
  obtain ⟨s3, c3⟩ := sc1 (r.L5)
  obtain ⟨s4, c4⟩ := sc1 (r.Lp)
  obtain ⟨s5, c5⟩ := sc r.T (3 * r.L3)
  obtain ⟨s6, c6⟩ := sc1 (r.L6)
  obtain ⟨s7, c7⟩ := sc1 (r.F)
  obtain ⟨s8, c8⟩ := sc1 (r.Lp + r.Mp)
  obtain ⟨s9, c9⟩ := sc1 (2 * r.L5)
  obtain ⟨s10, c10⟩ := sc1 (2 * r.L3 - r.L5)
  obtain ⟨s11, c11⟩ := sc1 (3 * r.L3 - 8 * r.L4 + 3 * r.L5)
  obtain ⟨s12, c12⟩ := sc1 (5 * r.L3 - 8 * r.L4 + 3 * r.L5)
  obtain ⟨s13, c13⟩ := sc1 (2 * r.L2 - r.L3)
  obtain ⟨s14, c14⟩ := sc1 (r.L2)
  obtain ⟨s15, c15⟩ := sc1 (r.L7)
  obtain ⟨s16, c16⟩ := sc1 (r.L3 - 2 * r.L5)
  obtain ⟨s17, c17⟩ := sc1 (r.L8)
  obtain ⟨s18, c18⟩ := sc1 (r.L3 + r.L5)
  obtain ⟨s19, c19⟩ := sc1 (2 * r.L2 - 2 * r.L3)
  obtain ⟨s20, c20⟩ := sc1 (r.L3 - r.L5)
  obtain ⟨s21, c21⟩ := sc1 (4 * r.L3)
  obtain ⟨s22, c22⟩ := sc1 (3 * r.L3 - 2 * r.L5)
  obtain ⟨s23, c23⟩ := sc1 (r.L2 - 2 * r.L3)
  obtain ⟨s24, c24⟩ := sc1 (2 * r.L2 - 3 * r.L3)
  obtain ⟨s25, c25⟩ := sc1 (2 * r.L6)
  obtain ⟨s26, c26⟩ := sc1 (2 * r.L2 - 4 * r.L3)
  obtain ⟨s27, c27⟩ := sc1 (3 * r.L3 - 2 * r.L4)
  obtain ⟨s28, c28⟩ := sc1 (r.Lp + 2 * r.D - r.Mp)
  obtain ⟨s29, c29⟩ := sc1 (8 * r.L2 - 12 * r.L3)
  obtain ⟨s30, c30⟩ := sc1 (8 * r.L2 - 14 * r.L3)
  obtain ⟨s31, c31⟩ := sc1 (2 * r.L4)
  obtain ⟨s32, c32⟩ := sc1 (3 * r.L2 - 4 * r.L3)
  obtain ⟨s33, c33⟩ := sc1 (2 * r.L3 - 2 * r.L5)
  obtain ⟨s34, c34⟩ := sc1 (3 * r.L2 - 3 * r.L3)
  obtain ⟨s35, c35⟩ := sc1 (2 * r.L3 - 2 * r.L4)
  obtain ⟨s36, c36⟩ := sc1 (r.Lp - 2 * r.D)
  simp only [rvSum, rvTerm, List.foldr_cons, List.foldr_nil]
  clear sc sc1
  simp only [abs_le] at *
  constructor <;> linarith

set_option maxHeartbeats 4000000 in
theorem rv_rest_y (r : RV) : |(rvSum r).2.1 - (25 * sin r.L3 + 1578089 * cos r.L3 + (25697 * sin (2 * r.L3) + -5904 * cos (2 * r.L3)) + (-216 * sin (3 * r.L3) + -446 * cos (3 * r.L3)))| ≤ 1917 + 407 * |r.T| := by
  have sc : ∀ T A : ℝ, |T * sin A| ≤ |T| ∧ |T * cos A| ≤ |T| := fun T A => by
    rw [abs_mul, abs_mul]
    exact ⟨mul_le_of_le_one_right (abs_nonneg _) (abs_sin_le_one _), mul_le_of_le_one_right (abs_nonneg _) (abs_cos_le_one _)⟩
  have sc1 : ∀ A : ℝ, |sin A| ≤ 1 ∧ |cos A| ≤ 1 := fun A => ⟨abs_sin_le_one _, abs_cos_le_one _⟩
  obtain ⟨s1, c1⟩ := sc r.T (r.L3)
  obtain ⟨s2, c2⟩ := sc r.T (2 * r.L3)
  obtain ⟨s3, c3⟩ := sc1 (r.L5)
  obtain ⟨s4, c4⟩ := sc1 (r.Lp)
  obtain ⟨s5, c5⟩ := sc r.T (3 * r.L3)
  obtain ⟨s6, c6⟩ := sc1 (r.L6)
  obtain ⟨s7, c7⟩ := sc1 (r.F)
  obtain ⟨s8, c8⟩ := sc1 (r.Lp + r.Mp)
  obtain ⟨s9, c9⟩ := sc1 (2 * r.L5)
  obtain ⟨s10, c10⟩ := sc1 (2 * r.L3 - r.L5)
  obtain ⟨s11, c11⟩ := sc1 (3 * r.L3 - 8 * r.L4 + 3 * r.L5)
  obtain ⟨s12, c12⟩ := sc1 (5 * r.L3 - 8 * r.L4 + 3 * r.L5)
  obtain ⟨s13, c13⟩ := sc1 (2 * r.L2 - r.L3)
  obtain ⟨s14, c14⟩ := sc1 (r.L2)
  obtain ⟨s15, c15⟩ := sc1 (r.L7)
  obtain ⟨s16, c16⟩ := sc1 (r.L3 - 2 * r.L5)
  obtain ⟨s17, c17⟩ := sc1 (r.L8)
  obtain ⟨s18, c18⟩ := sc1 (r.L3 + r.L5)
  obtain ⟨s19, c19⟩ := sc1 (2 * r.L2 - 2 * r.L3)
  obtain ⟨s20, c20⟩ := sc1 (r.L3 - r.L5)
  obtain ⟨s21, c21⟩ := sc1 (4 * r.L3)
  obtain ⟨s22, c22⟩ := sc1 (3 * r.L3 - 2 * r.L5)
  obtain ⟨s23, c23⟩ := sc1 (r.L2 - 2 * r.L3)
  obtain ⟨s24, c24⟩ := sc1 (2 * r.L2 - 3 * r.L3)
  obtain ⟨s25, c25⟩ := sc1 (2 * r.L6)
  obtain ⟨s26, c26⟩ := sc1 (2 * r.L2 - 4 * r.L3)
  obtain ⟨s27, c27⟩ := sc1 (3 * r.L3 - 2 * r.L4)
  obtain ⟨s28, c28⟩ := sc1 (r.Lp + 2 * r.D - r.Mp)
  obtain ⟨s29, c29⟩ := sc1 (8 * r.L2 - 12 * r.L3)
  obtain ⟨s30, c30⟩ := sc1 (8 * r.L2 - 14 * r.L3)
  obtain ⟨s31, c31⟩ := sc1 (2 * r.L4)
  obtain ⟨s32, c32⟩ := sc1 (3 * r.L2 - 4 * r.L3)
  obtain ⟨s33, c33⟩ := sc1 (2 * r.L3 - 2 * r.L5)
  obtain ⟨s34, c34⟩ := sc1 (3 * r.L2 - 3 * r.L3)
  obtain ⟨s35, c35⟩ := sc1 (2 * r.L3 - 2 * r.L4)
  obtain ⟨s36, c36⟩ := sc1 (r.Lp - 2 * r.D)
  simp only [rvSum, rvTerm, List.foldr_cons, List.foldr_nil]
  clear sc sc1
  simp only [abs_le] at *
  constructor <;> linarith

set_option maxHeartbeats 4000000 in
theorem rv_rest_z (r : RV) : |(rvSum r).2.2 - (10 * sin r.L3 + 684185 * cos r.L3 + (11141 * sin (2 * r.L3) + -2559 * cos (2 * r.L3)) + (-94 * sin (3 * r.L3) + -193 * cos (3 * r.L3)))| ≤ 899 + 493 * |r.T| := by
  have sc : ∀ T A : ℝ, |T * sin A| ≤ |T| ∧ |T * cos A| ≤ |T| := fun T A => by
    rw [abs_mul, abs_mul]
    exact ⟨mul_le_of_le_one_right (abs_nonneg _) (abs_sin_le_one _), mul_le_of_le_one_right (abs_nonneg _) (abs_cos_le_one _)⟩
  have sc1 : ∀ A : ℝ, |sin A| ≤ 1 ∧ |cos A| ≤ 1 := fun A => ⟨abs_sin_le_one _, abs_cos_le_one _⟩
  obtain ⟨s1, c1⟩ := sc r.T (r.L3)
  obtain ⟨s2, c2⟩ := sc r.T (2 * r.L3)
  obtain ⟨s3, c3⟩ := sc1 (r.L5)
  obtain ⟨s4, c4⟩ := sc1 (r.Lp)
  obtain ⟨s5, c5⟩ := sc r.T (3 * r.L3)
  obtain ⟨s6, c6⟩ := sc1 (r.L6)
  obtain ⟨s7, c7⟩ := sc1 (r.F)
  obtain ⟨s8, c8⟩ := sc1 (r.Lp + r.Mp)
  obtain ⟨s9, c9⟩ := sc1 (2 * r.L5)
  obtain ⟨s10, c10⟩ := sc1 (2 * r.L3 - r.L5)
  obtain ⟨s11, c11⟩ := sc1 (3 * r.L3 - 8 * r.L4 + 3 * r.L5)
  obtain ⟨s12, c12⟩ := sc1 (5 * r.L3 - 8 * r.L4 + 3 * r.L5)
  obtain ⟨s13, c13⟩ := sc1 (2 * r.L2 - r.L3)
  obtain ⟨s14, c14⟩ := sc1 (r.L2)
  obtain ⟨s15, c15⟩ := sc1 (r.L7)
  obtain ⟨s16, c16⟩ := sc1 (r.L3 - 2 * r.L5)
  obtain ⟨s17, c17⟩ := sc1 (r.L8)
  obtain ⟨s18, c18⟩ := sc1 (r.L3 + r.L5)
  obtain ⟨s19, c19⟩ := sc1 (2 * r.L2 - 2 * r.L3)
  obtain ⟨s20, c20⟩ := sc1 (r.L3 - r.L5)
  obtain ⟨s21, c21⟩ := sc1 (4 * r.L3)
  obtain ⟨s22, c22⟩ := sc1 (3 * r.L3 - 2 * r.L5)
  obtain ⟨s23, c23⟩ := sc1 (r.L2 - 2 * r.L3)
  obtain ⟨s24, c24⟩ := sc1 (2 * r.L2 - 3 * r.L3)
  obtain ⟨s25, c25⟩ := sc1 (2 * r.L6)
  obtain ⟨s26, c26⟩ := sc1 (2 * r.L2 - 4 * r.L3)
  obtain ⟨s27, c27⟩ := sc1 (3 * r.L3 - 2 * r.L4)
  obtain ⟨s28, c28⟩ := sc1 (r.Lp + 2 * r.D - r.Mp)
  obtain ⟨s29, c29⟩ := sc1 (8 * r.L2 - 12 * r.L3)
  obtain ⟨s30, c30⟩ := sc1 (8 * r.L2 - 14 * r.L3)
  obtain ⟨s31, c31⟩ := sc1 (2 * r.L4)
  obtain ⟨s32, c32⟩ := sc1 (3 * r.L2 - 4 * r.L3)
  obtain ⟨s33, c33⟩ := sc1 (2 * r.L3 - 2 * r.L5)
  obtain ⟨s34, c34⟩ := sc1 (3 * r.L2 - 3 * r.L3)
  obtain ⟨s35, c35⟩ := sc1 (2 * r.L3 - 2 * r.L4)
  obtain ⟨s36, c36⟩ := sc1 (r.Lp - 2 * r.D)
  simp only [rvSum, rvTerm, List.foldr_cons, List.foldr_nil]
  clear sc sc1
  simp only [abs_le] at *
  constructor <;> linarith

set_option maxHeartbeats 4000000 in
theorem rv_plane_q (r : RV) : |-0.397777 * (rvSum r).2.1 + 0.917482 * (rvSum r).2.2| ≤ 114.5 + 437 * |r.T| := by
  have sc : ∀ T A : ℝ, |T * sin A| ≤ |T| ∧ |T * cos A| ≤ |T| := fun T A => by
    rw [abs_mul, abs_mul]
    exact ⟨mul_le_of_le_one_right (abs_nonneg _) (abs_sin_le_one _), mul_le_of_le_one_right (abs_nonneg _) (abs_cos_le_one _)⟩
  have sc1 : ∀ A : ℝ, |sin A| ≤ 1 ∧ |cos A| ≤ 1 := fun A => ⟨abs_sin_le_one _, abs_cos_le_one _⟩
  obtain ⟨s1, c1⟩ := sc r.T (r.L3)
  obtain ⟨s2, c2⟩ := sc r.T (2 * r.L3)
  obtain ⟨s3, c3⟩ := sc1 (r.L5)
  obtain ⟨s4, c4⟩ := sc1 (r.Lp)
  obtain ⟨s5, c5⟩ := sc r.T (3 * r.L3)
  obtain ⟨s6, c6⟩ := sc1 (r.L6)
  obtain ⟨s7, c7⟩ := sc1 (r.F)
  obtain ⟨s8, c8⟩ := sc1 (r.Lp + r.Mp)
  obtain ⟨s9, c9⟩ := sc1 (2 * r.L5)
  obtain ⟨s10, c10⟩ := sc1 (2 * r.L3 - r.L5)
  obtain ⟨s11, c11⟩ := sc1 (3 * r.L3 - 8 * r.L4 + 3 * r.L5)
  obtain ⟨s12, c12⟩ := sc1 (5 * r.L3 - 8 * r.L4 + 3 * r.L5)
  obtain ⟨s13, c13⟩ := sc1 (2 * r.L2 - r.L3)
  obtain ⟨s14, c14⟩ := sc1 (r.L2)
  obtain ⟨s15, c15⟩ := sc1 (r.L7)
  obtain ⟨s16, c16⟩ := sc1 (r.L3 - 2 * r.L5)
  obtain ⟨s17, c17⟩ := sc1 (r.L8)
  obtain ⟨s18, c18⟩ := sc1 (r.L3 + r.L5)
  obtain ⟨s19, c19⟩ := sc1 (2 * r.L2 - 2 * r.L3)
  obtain ⟨s20, c20⟩ := sc1 (r.L3 - r.L5)
  obtain ⟨s21, c21⟩ := sc1 (4 * r.L3)
  obtain ⟨s22, c22⟩ := sc1 (3 * r.L3 - 2 * r.L5)
  obtain ⟨s23, c23⟩ := sc1 (r.L2 - 2 * r.L3)
  obtain ⟨s24, c24⟩ := sc1 (2 * r.L2 - 3 * r.L3)
  obtain ⟨s25, c25⟩ := sc1 (2 * r.L6)
  obtain ⟨s26, c26⟩ := sc1 (2 * r.L2 - 4 * r.L3)
  obtain ⟨s27, c27⟩ := sc1 (3 * r.L3 - 2 * r.L4)
  obtain ⟨s28, c28⟩ := sc1 (r.Lp + 2 * r.D - r.Mp)
  obtain ⟨s29, c29⟩ := sc1 (8 * r.L2 - 12 * r.L3)
  obtain ⟨s30, c30⟩ := sc1 (8 * r.L2 - 14 * r.L3)
  obtain ⟨s31, c31⟩ := sc1 (2 * r.L4)
  obtain ⟨s32, c32⟩ := sc1 (3 * r.L2 - 4 * r.L3)
  obtain ⟨s33, c33⟩ := sc1 (2 * r.L3 - 2 * r.L5)
  obtain ⟨s34, c34⟩ := sc1 (3 * r.L2 - 3 * r.L3)
  obtain ⟨s35, c35⟩ := sc1 (2 * r.L3 - 2 * r.L4)
  obtain ⟨s36, c36⟩ := sc1 (r.Lp - 2 * r.D)
  simp only [rvSum, rvTerm, List.foldr_cons, List.foldr_nil]
  clear sc sc1
  simp only [abs_le] at *
  obtain ⟨s101, s102⟩ := abs_le.1 (abs_sin_le_one r.L3)
  obtain ⟨s103, s104⟩ := abs_le.1 (abs_cos_le_one r.L3)
  obtain ⟨s105, s106⟩ := abs_le.1 (abs_sin_le_one (2 * r.L3))
  obtain ⟨s107, s108⟩ := abs_le.1 (abs_cos_le_one (2 * r.L3))
  obtain ⟨s109, s110⟩ := abs_le.1 (abs_sin_le_one (3 * r.L3))
  obtain ⟨s111, s112⟩ := abs_le.1 (abs_cos_le_one (3 * r.L3))
  norm_num at *
  constructor <;> linarith

theorem rv_size (r : RV) (hT : |r.T| ≤ 10) : |(rvSum r).2.1| ≤ 1.7e6 ∧ |(rvSum r).2.2| ≤ 7.5e5 := by
  have hy := rv_rest_y r
  have hz := rv_rest_z r
  have s1 := abs_sin_le_one r.L3
  have c1 := abs_cos_le_one r.L3
  have s2 := abs_sin_le_one (2 * r.L3)
  have c2 := abs_cos_le_one (2 * r.L3)
  have s3 := abs_sin_le_one (3 * r.L3)
  have c3 := abs_cos_le_one (3 * r.L3)
  generalize |r.T| = t at *
  simp only [abs_le] at *
  norm_num at *
  refine ⟨⟨?_, ?_⟩, ?_, ?_⟩ <;> linarith

/-- The velocity of the table lies in the ecliptic of 2000. -/
theorem rv_plane (r : RV) (hT : |r.T| ≤ 10) :
    |-(sin (84381.448 * sec) * (rvSum r).2.1) + cos (84381.448 * sec) * (rvSum r).2.2| ≤ 117 + 437 * |r.T| := by
  have h := rv_plane_q r
  obtain ⟨hy, hz⟩ := rv_size r hT
  obtain ⟨e1, e2⟩ := rv_eps
  have m1 : |(sin (84381.448 * sec) - 0.397777) * (rvSum r).2.1| ≤ 1e-6 * 1.7e6 := by rw [abs_mul]; gcongr
  have m2 : |(cos (84381.448 * sec) - 0.917482) * (rvSum r).2.2| ≤ 1e-6 * 7.5e5 := by rw [abs_mul]; gcongr
  rw [abs_le] at *
  norm_num at *
  constructor <;> linarith

/-! The velocity from the longitude of the Sun -/

/-- The longitude of the Sun referred to 2000 against the mean longitude of the table. -/
theorem rv_sun {T : ℝ} (hT : |T| ≤ 1) : ∃ d, |d| ≤ 7e-6 ∧ sin (Solar.True2000 T).1 = -sin (1.7534703 + 628.3075849 * T + (Solar.center T + d)) ∧
    cos (Solar.True2000 T).1 = -cos (1.7534703 + 628.3075849 * T + (Solar.center T + d)) := by
  refine ⟨Solar.meanLon T - 1.397 * deg * T - π - (1.7534703 + 628.3075849 * T), ?_, ?_, ?_⟩
  · unfold Solar.meanLon
    simp only [hornerR, List.foldr_cons, List.foldr_nil]
    have h1 := pi_gt_d20
    have h2 := pi_lt_d20
    have hpi : deg = π / 180 := rfl
    rw [hpi]
    have e : (((0 * T + 0.0003032) * T + 36000.76983) * T + 280.46646) * (π / 180) - 1.397 * (π / 180) * T - π - (1.7534703 + 628.3075849 * T) =
      (280.46646 * (π / 180) - π - 1.7534703) + ((36000.76983 - 1.397) * (π / 180) - 628.3075849) * T + 0.0003032 * (π / 180) * T ^ 2 := by ring
    rw [e]
    have a0 : |280.46646 * (π / 180) - π - 1.7534703| ≤ 3e-7 := by rw [abs_le]; norm_num at *; constructor <;> linarith
    have a1 : |((36000.76983 - 1.397) * (π / 180) - 628.3075849) * T| ≤ 1e-6 := by
      rw [abs_mul]
      have : |(36000.76983 - 1.397) * (π / 180) - 628.3075849| ≤ 1e-6 := by rw [abs_le]; norm_num at *; constructor <;> linarith
      nlinarith [abs_nonneg T, abs_nonneg ((36000.76983 - 1.397) * (π / 180) - 628.3075849)]
    have a2 : |0.0003032 * (π / 180) * T ^ 2| ≤ 5.4e-6 := by
      have t2 : T ^ 2 ≤ 1 := by rw [abs_le] at hT; nlinarith
      rw [abs_of_nonneg (by positivity)]
      have : 0.0003032 * (π / 180) ≤ 5.4e-6 := by norm_num at *; linarith
      nlinarith [sq_nonneg T, pi_pos]
    rw [abs_le] at *
    norm_num at *
    constructor <;> linarith
  all_goals
    unfold Solar.True2000 Solar.TrueLon
    dsimp only
  · rw [sin_sub, sin_mod1, cos_mod1, ← sin_sub, ← sin_add_pi]
    congr 1; ring
  · rw [cos_sub, sin_mod1, cos_mod1, ← cos_sub, ← cos_add_pi]
    congr 1; ring

theorem sin_sub_abs_le (a b : ℝ) : |sin a - sin b| ≤ |a - b| := by
  have := abs_sin_sub_sin_le a b
  exact this

/-- The equation of the centre as a function of the mean longitude, with the perihelion of 2000. -/
theorem rv_center {T : ℝ} (hT : |T| ≤ 1) :
    |Solar.center T - (0.0334161 * sin (1.7534703 + 628.3075849 * T - 102.93735 * deg) + 0.00034894 * sin (2 * (1.7534703 + 628.3075849 * T - 102.93735 * deg)))| ≤ 2.95e-4 := by
  have h1 := pi_gt_d20
  have h2 := pi_lt_d20
  have hpi : deg = π / 180 := rfl
  obtain ⟨m, hm⟩ : ∃ m, m = 1.7534703 + 628.3075849 * T - 102.93735 * deg := ⟨_, rfl⟩
  have hM : |Solar.MeanAnomaly T - 2 * π - m| ≤ 5.64e-3 := by
    unfold Solar.MeanAnomaly
    simp only [hornerR, List.foldr_cons, List.foldr_nil]
    rw [hm, hpi]
    have e : (((0 * T + -0.0001537) * T + 35999.05029) * T + 357.52911) * (π / 180) - 2 * π - (1.7534703 + 628.3075849 * T - 102.93735 * (π / 180)) =
      (357.52911 * (π / 180) - 2 * π - 1.7534703 + 102.93735 * (π / 180)) + (35999.05029 * (π / 180) - 628.3075849) * T + -0.0001537 * (π / 180) * T ^ 2 := by ring
    rw [e]
    have a0 : |357.52911 * (π / 180) - 2 * π - 1.7534703 + 102.93735 * (π / 180)| ≤ 3e-7 := by rw [abs_le]; norm_num at *; constructor <;> linarith
    have a1 : |(35999.05029 * (π / 180) - 628.3075849) * T| ≤ 5.632e-3 := by
      rw [abs_mul]
      have : |35999.05029 * (π / 180) - 628.3075849| ≤ 5.632e-3 := by rw [abs_le]; norm_num at *; constructor <;> linarith
      nlinarith [abs_nonneg T, abs_nonneg (35999.05029 * (π / 180) - 628.3075849)]
    have a2 : |-0.0001537 * (π / 180) * T ^ 2| ≤ 3e-6 := by
      have t2 : T ^ 2 ≤ 1 := by rw [abs_le] at hT; nlinarith
      rw [neg_mul, neg_mul, abs_neg, abs_of_nonneg (by positivity)]
      have : 0.0001537 * (π / 180) ≤ 3e-6 := by norm_num at *; linarith
      nlinarith [sq_nonneg T, pi_pos]
    rw [abs_le] at *
    norm_num at *
    constructor <;> linarith
  obtain ⟨M, hMM⟩ : ∃ M, M = Solar.MeanAnomaly T - 2 * π := ⟨_, rfl⟩
  have s1 : sin (Solar.MeanAnomaly T) = sin M := by rw [hMM, sin_sub_two_pi]
  have s2 : sin (Solar.MeanAnomaly T * 2) = sin (2 * M) := by
    rw [hMM, show 2 * (Solar.MeanAnomaly T - 2 * π) = Solar.MeanAnomaly T * 2 - 2 * π - 2 * π by ring, sin_sub_two_pi, sin_sub_two_pi]
  unfold Solar.center
  simp only [hornerR, List.foldr_cons, List.foldr_nil]
  rw [s1, s2, ← hm]
  rw [← hMM] at hM
  have q1 := (abs_sin_sub_sin_le M m).trans hM
  have q2 : |sin (2 * M) - sin (2 * m)| ≤ 2 * 5.64e-3 := by
    refine (abs_sin_sub_sin_le (2 * M) (2 * m)).trans ?_
    rw [← mul_sub, abs_mul, abs_of_pos (by norm_num : (0 : ℝ) < 2)]
    linarith
  have e : (((((0 * T + -0.000014) * T + -0.004817) * T + 1.914602) * sin M + (0.019993 - 0.000101 * T) * sin (2 * M) + 0.000289 * sin (Solar.MeanAnomaly T * 3)) * deg
      - (0.0334161 * sin m + 0.00034894 * sin (2 * m))) =
      1.914602 * deg * (sin M - sin m) + 0.019993 * deg * (sin (2 * M) - sin (2 * m)) + (1.914602 * deg - 0.0334161) * sin m + (0.019993 * deg - 0.00034894) * sin (2 * m)
      + -0.004817 * deg * (T * sin M) + -0.000014 * deg * (T ^ 2 * sin M) + -0.000101 * deg * (T * sin (2 * M)) + 0.000289 * deg * sin (Solar.MeanAnomaly T * 3) := by ring
  rw [e]
  clear e s1 s2 hM hMM hm
  have dd : 0.0174532925 ≤ deg ∧ deg ≤ 0.0174532926 := by rw [hpi]; norm_num at *; constructor <;> linarith
  obtain ⟨d0, d1⟩ := dd
  have mm : ∀ k x B : ℝ, 0 ≤ B → |x| ≤ B → |k * deg * x| ≤ |k| * 0.0174532926 * B := fun k x B hB hx => by
    rw [abs_mul, abs_mul, abs_of_pos (by linarith : 0 < deg)]
    gcongr
  have tt : ∀ A, |T * sin A| ≤ 1 := fun A => by
    rw [abs_mul]; nlinarith [abs_sin_le_one A, abs_nonneg T, abs_nonneg (sin A)]
  have tt2 : |T ^ 2 * sin M| ≤ 1 := by
    rw [abs_mul, abs_pow]; nlinarith [abs_sin_le_one M, abs_nonneg T, abs_nonneg (sin M), pow_le_one₀ (n := 2) (abs_nonneg T) hT, sq_nonneg |T|]
  have b1 := mm 1.914602 _ _ (by norm_num) q1
  have b2 := mm 0.019993 _ _ (by norm_num) q2
  have b3 : |(1.914602 * deg - 0.0334161) * sin m| ≤ 1e-7 * 1 := by
    rw [abs_mul]
    have := abs_sin_le_one m
    gcongr
    rw [abs_le]; norm_num at *; constructor <;> linarith
  have b4 : |(0.019993 * deg - 0.00034894) * sin (2 * m)| ≤ 1e-8 * 1 := by
    rw [abs_mul]
    have := abs_sin_le_one (2 * m)
    gcongr
    rw [abs_le]; norm_num at *; constructor <;> linarith
  have b5 := mm (-0.004817) _ _ (by norm_num) (tt M)
  have b6 := mm (-0.000014) _ _ (by norm_num) tt2
  have b7 := mm (-0.000101) _ _ (by norm_num) (tt (2 * M))
  have b8 := mm 0.000289 _ _ (by norm_num) (abs_sin_le_one (Solar.MeanAnomaly T * 3))
  clear mm tt tt2 q1 q2 h1 h2 hpi d0 d1 hT
  rw [abs_le] at *
  norm_num at *
  constructor <;> linarith

/-- Eccentricity and perihelion of 2000 in place of those of the date. -/
theorem rv_ecc {T : ℝ} (hT : |T| ≤ 1) :
    |Solar.Eccentricity T * sin (perihelion T - 1.397 * deg * T) - 0.016708634 * sin (102.93735 * deg)| ≤ 1.37e-4 ∧
    |Solar.Eccentricity T * cos (perihelion T - 1.397 * deg * T) - 0.016708634 * cos (102.93735 * deg)| ≤ 1.37e-4 := by
  obtain ⟨t0, t1⟩ := abs_le.1 hT
  have t2 : T ^ 2 ≤ 1 := by nlinarith
  have t2' := sq_nonneg T
  have he : |Solar.Eccentricity T - 0.016708634| ≤ 4.22e-5 := by
    unfold Solar.Eccentricity
    simp only [hornerR, List.foldr_cons, List.foldr_nil]
    rw [abs_le]; norm_num at *; constructor <;> nlinarith
  have hp : |perihelion T - 1.397 * deg * T - 102.93735 * deg| ≤ 5.64e-3 := by
    unfold perihelion
    simp only [hornerR, List.foldr_cons, List.foldr_nil]
    have e : (((0 * T + 0.00046) * T + 1.71946) * T + 102.93735) * deg - 1.397 * deg * T - 102.93735 * deg = deg * (0.32246 * T + 0.00046 * T ^ 2) := by ring
    obtain ⟨d0, d1⟩ := deg_num
    rw [e, abs_mul, abs_of_pos (by linarith : 0 < deg)]
    have : |0.32246 * T + 0.00046 * T ^ 2| ≤ 0.32292 := by rw [abs_le]; constructor <;> linarith
    calc deg * |0.32246 * T + 0.00046 * T ^ 2| ≤ 0.01745329252 * 0.32292 := by gcongr
      _ ≤ _ := by norm_num
  generalize perihelion T - 1.397 * deg * T = p at *
  generalize Solar.Eccentricity T = e at *
  generalize 102.93735 * deg = w at *
  have q1 := (abs_sin_sub_sin_le p w).trans hp
  have q2 := (abs_cos_sub_cos_le p w).trans hp
  have k : ∀ a b : ℝ, |a - b| ≤ 5.64e-3 → |a| ≤ 1 → |e * a - 0.016708634 * b| ≤ 1.37e-4 := fun a b h ha => by
    have e1 : e * a - 0.016708634 * b = (e - 0.016708634) * a + 0.016708634 * (a - b) := by ring
    rw [e1]
    have m1 : |(e - 0.016708634) * a| ≤ 4.22e-5 * 1 := by rw [abs_mul]; gcongr
    have m2 : |0.016708634 * (a - b)| ≤ 0.016708634 * 5.64e-3 := by
      rw [abs_mul, abs_of_pos (by norm_num : (0 : ℝ) < 0.016708634)]; gcongr
    rw [abs_le] at m1 m2 ⊢
    norm_num at *
    constructor <;> linarith
  exact ⟨k _ _ q1 (abs_sin_le_one p), k _ _ q2 (abs_cos_le_one p)⟩

/-- Second order in the equation of the centre. -/
theorem rv_second {u x m : ℝ} (hx : |x - (0.0334161 * sin m + 0.00034894 * sin (2 * m))| ≤ 3.02e-4) :
    |sin (u + x) - (sin u + (0.0334161 * sin m + 0.00034894 * sin (2 * m)) * cos u - 0.0334161 ^ 2 * sin m ^ 2 / 2 * sin u)| ≤ 3.24e-4 ∧
    |cos (u + x) - (cos u - (0.0334161 * sin m + 0.00034894 * sin (2 * m)) * sin u - 0.0334161 ^ 2 * sin m ^ 2 / 2 * cos u)| ≤ 3.24e-4 := by
  have a1 := abs_sin_le_one m
  have a2 := abs_sin_le_one (2 * m)
  have sq1 : sin m ^ 2 ≤ 1 := sin_sq_le_one m
  generalize sin m = p at *
  generalize sin (2 * m) = q at *
  obtain ⟨C, hC⟩ : ∃ C, C = 0.0334161 * p + 0.00034894 * q := ⟨_, rfl⟩
  rw [← hC] at hx ⊢
  have c1 : |C| ≤ 0.0338 := by rw [hC]; rw [abs_le] at *; norm_num at *; constructor <;> linarith
  have c3 : |C| ^ 3 ≤ 0.0338 ^ 3 := by gcongr
  have c2 : |C ^ 2 / 2 - 0.0334161 ^ 2 * p ^ 2 / 2| ≤ 1.18e-5 := by
    have e : C ^ 2 / 2 - 0.0334161 ^ 2 * p ^ 2 / 2 = 0.0334161 * 0.00034894 * (p * q) + 0.00034894 ^ 2 / 2 * q ^ 2 := by rw [hC]; ring
    have m1 : |p * q| ≤ 1 := by rw [abs_mul]; exact mul_le_one₀ a1 (abs_nonneg _) a2
    have m2 : q ^ 2 ≤ 1 := by rw [abs_le] at a2; nlinarith
    have m3 := sq_nonneg q
    rw [e]
    generalize p * q = y at *
    generalize q ^ 2 = z at *
    clear * - m1 m2 m3
    rw [abs_le] at *; norm_num at *; constructor <;> linarith
  have t1 := Laurent.sin_taylor2 u (h := C) (by norm_num at *; linarith)
  have t2 := Laurent.sin_taylor2 (u + π / 2) (h := C) (by norm_num at *; linarith)
  rw [show u + π / 2 + C = u + C + π / 2 by ring, sin_add_pi_div_two, sin_add_pi_div_two, cos_add_pi_div_two] at t2
  have l1 : |sin (u + x) - sin (u + C)| ≤ 3.02e-4 := by
    refine (abs_sin_sub_sin_le _ _).trans ?_
    rwa [add_sub_add_left_eq_sub]
  have l2 : |cos (u + x) - cos (u + C)| ≤ 3.02e-4 := by
    refine (abs_cos_sub_cos_le _ _).trans ?_
    rwa [add_sub_add_left_eq_sub]
  have k1 : |(C ^ 2 / 2 - 0.0334161 ^ 2 * p ^ 2 / 2) * sin u| ≤ 1.18e-5 * 1 := by
    rw [abs_mul]; have := abs_sin_le_one u; gcongr
  have k2 : |(C ^ 2 / 2 - 0.0334161 ^ 2 * p ^ 2 / 2) * cos u| ≤ 1.18e-5 * 1 := by
    rw [abs_mul]; have := abs_cos_le_one u; gcongr
  clear hx c1 c2 a1 a2 sq1 hC
  simp only [abs_le] at *
  norm_num at *
  refine ⟨⟨?_, ?_⟩, ?_, ?_⟩ <;> linarith

theorem rv_comb_x {A E Q E0 k v R b : ℝ} (h1 : |A - Q| ≤ 3.24e-4) (h2 : |E - E0| ≤ 1.37e-4) (hk : |k - 1720453| ≤ 1) (hA : |A| ≤ 1) (hE : |E| ≤ 1)
    (h3 : |1720453 * (-Q - E0) - R| ≤ 40) (h4 : |v - R| ≤ b) : |k * (-A - E) - v| ≤ 836 + b := by
  have e : k * (-A - E) - v = (1720453 * (-Q - E0) - R) + 1720453 * ((Q - A) + (E0 - E)) + (k - 1720453) * (-A - E) - (v - R) := by ring
  have m : |(k - 1720453) * (-A - E)| ≤ 1 * 2 := by
    rw [abs_mul]
    have : |-A - E| ≤ 2 := by rw [abs_le] at *; constructor <;> linarith
    gcongr
  rw [e]
  generalize (k - 1720453) * (-A - E) = y at *
  clear hk e
  rw [abs_le] at *; norm_num at *; constructor <;> linarith

theorem rv_comb_y {B E Q E0 k v R b f g : ℝ} (h1 : |B - Q| ≤ 3.24e-4) (h2 : |E - E0| ≤ 1.37e-4) (hk : |k - 1720453| ≤ 1) (hB : |B| ≤ 1) (hE : |E| ≤ 1)
    (h3 : |1720453 * f * (E0 + Q) - R| ≤ 40) (h4 : |v - R| ≤ b) (hg : |g - f| ≤ 1e-6) (hf : 0 ≤ f) (hg1 : |g| ≤ 1) :
    |k * (g * (E - -B)) - v| ≤ 793.2 * f + 46 + b := by
  have e : k * (g * (E - -B)) - v = (1720453 * f * (E0 + Q) - R) + 1720453 * f * ((B - Q) + (E - E0)) + 1720453 * ((g - f) * (E + B)) + (k - 1720453) * (g * (E + B)) - (v - R) := by ring
  have hEB : |E + B| ≤ 2 := by rw [abs_le] at *; constructor <;> linarith
  have m : |(k - 1720453) * (g * (E + B))| ≤ 1 * (1 * 2) := by
    rw [abs_mul, abs_mul]
    gcongr
  have m2 : |(g - f) * (E + B)| ≤ 1e-6 * 2 := by rw [abs_mul]; gcongr
  have m3 : |1720453 * f * ((B - Q) + (E - E0))| ≤ 1720453 * f * 4.61e-4 := by
    rw [abs_mul, abs_of_nonneg (by positivity : 0 ≤ 1720453 * f)]
    gcongr
    rw [abs_le] at *; norm_num at *; constructor <;> linarith
  rw [e]
  generalize (k - 1720453) * (g * (E + B)) = y at *
  generalize (g - f) * (E + B) = z at *
  generalize 1720453 * f * ((B - Q) + (E - E0)) = x at *
  clear hk e h1 h2 hg hg1
  rw [abs_le] at *; norm_num at *; constructor <;> linarith

/-- The velocity of the Earth in the frame of 2000 by the two methods, in the unit of the table. -/
theorem rv_velocity {T : ℝ} (hT : |T| ≤ 1) :
    let s := (Solar.True2000 T).1
    let e := Solar.Eccentricity T
    let p := perihelion T - 1.397 * deg * T
    let v := rvSum (rvAt T)
    |kappa * lightC * (sin s - e * sin p) - v.1| ≤ 3200 ∧
    |kappa * lightC * (cos (84381.448 * sec) * (e * cos p - cos s)) - v.2.1| ≤ 3200 ∧
    |kappa * lightC * (sin (84381.448 * sec) * (e * cos p - cos s)) - v.2.2| ≤ 1800 := by
  intro s e p v
  obtain ⟨d, hd, hs, hc⟩ := rv_sun hT
  have hC := rv_center hT
  obtain ⟨e1, e2⟩ := rv_ecc hT
  have r1 := rv_rest_x (rvAt T)
  have r2 := rv_rest_y (rvAt T)
  have r3 := rv_rest_z (rvAt T)
  have hL : (rvAt T).L3 = 1.7534703 + 628.3075849 * T := rfl
  have hTT : (rvAt T).T = T := rfl
  rw [hL, hTT] at r1 r2 r3
  obtain ⟨w1, w2⟩ := rv_peri
  have w3 := sin_sq_add_cos_sq (102.93735 * deg)
  obtain ⟨f1, f2⟩ := rv_eps
  have hk := rv_kappa
  have hx : |Solar.center T + d - (0.0334161 * sin (1.7534703 + 628.3075849 * T - 102.93735 * deg) + 0.00034894 * sin (2 * (1.7534703 + 628.3075849 * T - 102.93735 * deg)))| ≤ 3.02e-4 := by
    rw [abs_le] at *; norm_num at *; constructor <;> linarith
  have hsn : sin s = _ := hs
  have hcn : cos s = _ := hc
  have he1 : |e * sin p - _| ≤ _ := e1
  have he2 : |e * cos p - _| ≤ _ := e2
  have hv1 : |v.1 - _| ≤ _ := r1
  have hv2 : |v.2.1 - _| ≤ _ := r2
  have hv3 : |v.2.2 - _| ≤ _ := r3
  clear hL hTT hC hs hc e1 e2 r1 r2 r3 hd
  generalize 1.7534703 + 628.3075849 * T = u at *
  obtain ⟨q1, q2⟩ := rv_second (u := u) hx
  rw [sin_two_mul, sin_sub, cos_sub] at q1 q2
  have x0 := rv_main_x (u := u) w1 w2 (by linarith)
  have y0 := rv_main_yz (u := u) w1 w2 (by linarith) (Or.inl ⟨rfl, rfl, rfl, rfl, rfl, rfl, rfl⟩)
  have z0 := rv_main_yz (u := u) w1 w2 (by linarith) (Or.inr ⟨rfl, rfl, rfl, rfl, rfl, rfl, rfl⟩)
  have be : |e * sin p| ≤ 1 ∧ |e * cos p| ≤ 1 := by
    clear * - he1 he2 w1 w2
    rw [abs_le] at *; rw [abs_le] at *; norm_num at *
    refine ⟨⟨?_, ?_⟩, ?_, ?_⟩ <;> linarith
  have bx := rv_comb_x q1 he1 hk (abs_sin_le_one _) be.1 x0 hv1
  have by' := rv_comb_y q2 he2 hk (abs_cos_le_one _) be.2 y0 hv2 f1 (by norm_num) (abs_cos_le_one _)
  have bz := rv_comb_y q2 he2 hk (abs_cos_le_one _) be.2 z0 hv3 f2 (by norm_num) (abs_sin_le_one _)
  rw [← hcn] at by' bz
  rw [← hsn] at bx
  exact ⟨bx.trans (by linarith), by'.trans (by norm_num; linarith), bz.trans (by norm_num; linarith)⟩

/-! The displacement of a star -/

/-- `Aberration` from a velocity, in units of the speed of light. -/
theorem aberration_velocity {ε s e p α δ : ℝ} (hε : cos ε ≠ 0) :
    Aberration ε s e p α δ = (((kappa * (cos ε * (e * cos p - cos s))) * cos α - (kappa * (sin s - e * sin p)) * sin α) / cos δ,
      -(((kappa * (sin s - e * sin p)) * cos α + (kappa * (cos ε * (e * cos p - cos s))) * sin α) * sin δ - (kappa * (sin ε * (e * cos p - cos s))) * cos δ)) := by
  unfold Aberration
  simp only [Prod.mk.injEq]
  constructor
  · ring
  · rw [tan_eq_sin_div_cos]; field_simp; ring

/-- Displacements by velocities that differ by less than q. -/
theorem displacement_close {X Y Z X' Y' Z' α δ q qx qy qz : ℝ} (hx : |X - X'| ≤ qx) (hy : |Y - Y'| ≤ qy) (hz : |Z - Z'| ≤ qz) (hq : 0 ≤ q)
    (h : qx ^ 2 + qy ^ 2 + qz ^ 2 ≤ q ^ 2) :
    |(Y * cos α - X * sin α) - (Y' * cos α - X' * sin α)| ≤ q ∧
    |-((X * cos α + Y * sin α) * sin δ - Z * cos δ) - -((X' * cos α + Y' * sin α) * sin δ - Z' * cos δ)| ≤ q := by
  have e1 : (Y * cos α - X * sin α) - (Y' * cos α - X' * sin α) = (Y - Y') * cos α - (X - X') * sin α := by ring
  have e2 : -((X * cos α + Y * sin α) * sin δ - Z * cos δ) - -((X' * cos α + Y' * sin α) * sin δ - Z' * cos δ) =
    (Z - Z') * cos δ - ((X - X') * cos α + (Y - Y') * sin α) * sin δ := by ring
  rw [e1, e2]
  have x2 : (X - X') ^ 2 ≤ qx ^ 2 := sq_le_sq' (by linarith [abs_le.1 hx]) (by linarith [abs_le.1 hx])
  have y2 : (Y - Y') ^ 2 ≤ qy ^ 2 := sq_le_sq' (by linarith [abs_le.1 hy]) (by linarith [abs_le.1 hy])
  have z2 : (Z - Z') ^ 2 ≤ qz ^ 2 := sq_le_sq' (by linarith [abs_le.1 hz]) (by linarith [abs_le.1 hz])
  generalize X - X' = x at *
  generalize Y - Y' = y at *
  generalize Z - Z' = z at *
  have ha := sin_sq_add_cos_sq α
  have hd := sin_sq_add_cos_sq δ
  have i1 : (y * cos α - x * sin α) ^ 2 + (x * cos α + y * sin α) ^ 2 = x ^ 2 + y ^ 2 := by
    rw [show (y * cos α - x * sin α) ^ 2 + (x * cos α + y * sin α) ^ 2 = (x ^ 2 + y ^ 2) * (sin α ^ 2 + cos α ^ 2) by ring, ha, mul_one]
  have i2 : ∀ w : ℝ, (z * cos δ - w * sin δ) ^ 2 + (z * sin δ + w * cos δ) ^ 2 = z ^ 2 + w ^ 2 := fun w => by
    rw [show (z * cos δ - w * sin δ) ^ 2 + (z * sin δ + w * cos δ) ^ 2 = (z ^ 2 + w ^ 2) * (sin δ ^ 2 + cos δ ^ 2) by ring, hd, mul_one]
  constructor
  · apply abs_le_of_sq_le_sq _ hq
    nlinarith [sq_nonneg (x * cos α + y * sin α), sq_nonneg z, sq_nonneg qz]
  · apply abs_le_of_sq_le_sq _ hq
    have := i2 (x * cos α + y * sin α)
    nlinarith [sq_nonneg (y * cos α - x * sin α), sq_nonneg (z * sin δ + (x * cos α + y * sin α) * cos δ)]

theorem rv_lightC : (0 : ℝ) < lightC := by unfold lightC; norm_num

/-- **C177.**  The formula with the true longitude of the Sun, evaluated in the frame of the equinox 2000 (longitude of the Sun from solar.True2000, the
perihelion reduced by the same amount, the obliquity of 2000), and the expression of Ron and Vondrák displace a star equally within 0.06 arc second,
from 1900 to 2100. -/
theorem C177_ron_vondrak (jd α δ : ℝ) (hT : |J2000Century jd| ≤ 1) (hδ : cos δ ≠ 0) :
    let T := J2000Century jd
    let Δ := Aberration (MeanObliquity 2451545) (Solar.True2000 T).1 (Solar.Eccentricity T) (perihelion T - 1.397 * deg * T) α δ
    let Δ' := AberrationRonVondrakJD α δ jd
    |(Δ.1 - Δ'.1) * cos δ| ≤ 0.06 * sec ∧ |Δ.2 - Δ'.2| ≤ 0.06 * sec := by
  intro T Δ Δ'
  have ho : MeanObliquity 2451545 = 84381.448 * sec := by
    unfold MeanObliquity J2000Century
    simp only [hornerR, List.foldr_cons, List.foldr_nil]
    norm_num
  have hε : cos (84381.448 * sec) ≠ 0 := by
    have := (abs_le.1 rv_eps.1).1
    norm_num at *; linarith
  obtain ⟨v1, v2, v3⟩ := rv_velocity hT
  have hl := rv_lightC
  have hq : 4872 ≤ 0.06 * sec * lightC := by
    have hs : sec = deg / 3600 := by unfold sec deg; ring
    have := deg_num.1
    rw [hs]; unfold lightC
    norm_num at *; linarith
  have D := displacement_close (α := α) (δ := δ) v1 v2 v3 (by norm_num : (0 : ℝ) ≤ 4872) (by norm_num)
  have hΔ : Δ = _ := aberration_velocity (ε := MeanObliquity 2451545) (by rw [ho]; exact hε)
  have hΔ' : Δ' = AberrationRonVondrak (rvSum (rvAt T)).1 (rvSum (rvAt T)).2.1 (rvSum (rvAt T)).2.2 α δ := rfl
  rw [ho] at hΔ
  unfold AberrationRonVondrak at hΔ'
  rw [hΔ, hΔ']
  change |_ - _| ≤ _ ∧ |_ - _| ≤ _ at D
  have g : ∀ a b : ℝ, |a - b| ≤ 4872 → a = lightC * (a / lightC) := fun a b _ => by field_simp
  constructor
  · have : |(Δ.1 - Δ'.1) * cos δ| * lightC ≤ 4872 := by
      refine le_trans (le_of_eq ?_) D.1
      rw [← abs_of_pos hl, ← abs_mul, hΔ, hΔ', abs_of_pos hl]
      dsimp only
      congr 1
      field_simp
      ring
    rw [hΔ, hΔ'] at this
    nlinarith
  · have : |Δ.2 - Δ'.2| * lightC ≤ 4872 := by
      refine le_trans (le_of_eq ?_) D.2
      rw [← abs_of_pos hl, ← abs_mul, hΔ, hΔ', abs_of_pos hl]
      dsimp only
      congr 1
      field_simp
      ring
    rw [hΔ, hΔ'] at this
    nlinarith

/-- **C177.**  The displacement of a star on the ecliptic of 2000 by the expression of Ron and Vondrák is along the ecliptic: its part towards the pole
of the ecliptic is below 0.0014 arc second, and 0.0053 arc second more a century from 2000. -/
theorem C177_along_ecliptic (jd α δ l : ℝ) (hT : |J2000Century jd| ≤ 10) (hδ : cos δ ≠ 0)
    (hecl : dir α δ = rotX (MeanObliquity 2451545) (dir l 0)) :
    let Δ := AberrationRonVondrakJD α δ jd
    |inner ℝ (rotX (MeanObliquity 2451545) !₂[0, 0, 1]) (shift α δ Δ.1 Δ.2)| ≤ (0.0014 + 0.0053 * |J2000Century jd|) * sec := by
  intro Δ
  have ho : MeanObliquity 2451545 = 84381.448 * sec := by
    unfold MeanObliquity J2000Century
    simp only [hornerR, List.foldr_cons, List.foldr_nil]
    norm_num
  have h := C86_ronVondrak (rvSum (rvAt (J2000Century jd))).1 (rvSum (rvAt (J2000Century jd))).2.1 (rvSum (rvAt (J2000Century jd))).2.2 α δ hδ
  have hs : shift α δ Δ.1 Δ.2 = _ := h
  rw [hs, perp, inner_sub_right, inner_smul_right, hecl, inner_rotX]
  have z : inner ℝ !₂[0, 0, 1] (dir l 0) = 0 := by unfold dir; rw [inner_vec]; simp
  rw [z, mul_zero, sub_zero, rotX_vec, inner_vec, ho]
  have p := rv_plane (rvAt (J2000Century jd)) hT
  have hl := rv_lightC
  have hT' : (rvAt (J2000Century jd)).T = J2000Century jd := rfl
  rw [hT'] at p
  generalize rvSum (rvAt (J2000Century jd)) = v at *
  have e : 0 * (v.1 / lightC) + (cos (84381.448 * sec) * 0 - sin (84381.448 * sec) * 1) * (v.2.1 / lightC)
      + (sin (84381.448 * sec) * 0 + cos (84381.448 * sec) * 1) * (v.2.2 / lightC) =
      (-(sin (84381.448 * sec) * v.2.1) + cos (84381.448 * sec) * v.2.2) / lightC := by field_simp; ring
  rw [e, abs_div, abs_of_pos hl, div_le_iff₀ hl]
  refine p.trans ?_
  have hs : sec = deg / 3600 := by unfold sec deg; ring
  have d0 := deg_num.1
  have k : 83900 ≤ sec * lightC := by rw [hs]; unfold lightC; norm_num at *; linarith
  have t := abs_nonneg (J2000Century jd)
  rw [mul_assoc]
  generalize sec * lightC = y at *
  nlinarith

theorem displacement_sq {x y z α δ q : ℝ} (hq : 0 ≤ q) (h : x ^ 2 + y ^ 2 + z ^ 2 ≤ q ^ 2) :
    |y * cos α - x * sin α| ≤ q ∧ |z * cos δ - (x * cos α + y * sin α) * sin δ| ≤ q := by
  have ha := sin_sq_add_cos_sq α
  have hd := sin_sq_add_cos_sq δ
  have i1 : (y * cos α - x * sin α) ^ 2 + (x * cos α + y * sin α) ^ 2 = x ^ 2 + y ^ 2 := by
    rw [show (y * cos α - x * sin α) ^ 2 + (x * cos α + y * sin α) ^ 2 = (x ^ 2 + y ^ 2) * (sin α ^ 2 + cos α ^ 2) by ring, ha, mul_one]
  have i2 : ∀ w : ℝ, (z * cos δ - w * sin δ) ^ 2 + (z * sin δ + w * cos δ) ^ 2 = z ^ 2 + w ^ 2 := fun w => by
    rw [show (z * cos δ - w * sin δ) ^ 2 + (z * sin δ + w * cos δ) ^ 2 = (z ^ 2 + w ^ 2) * (sin δ ^ 2 + cos δ ^ 2) by ring, hd, mul_one]
  constructor
  · apply abs_le_of_sq_le_sq _ hq
    nlinarith [sq_nonneg (x * cos α + y * sin α), sq_nonneg z]
  · apply abs_le_of_sq_le_sq _ hq
    have := i2 (x * cos α + y * sin α)
    nlinarith [sq_nonneg (y * cos α - x * sin α), sq_nonneg (z * sin δ + (x * cos α + y * sin α) * cos δ)]

/-- The velocity is turned by the precession in longitude. -/
theorem velocity_turned (s e p a : ℝ) : ((sin s - e * sin p) - (sin (s - a) - e * sin (p - a))) ^ 2 +
    ((e * cos p - cos s) - (e * cos (p - a) - cos (s - a))) ^ 2 ≤ ((1 + |e|) * |a|) ^ 2 := by
  have hp := sin_sq_add_cos_sq p
  have hs := sin_sq_add_cos_sq s
  have ha := sin_sq_add_cos_sq a
  have i : ((sin s - e * sin p) - (sin (s - a) - e * sin (p - a))) ^ 2 + ((e * cos p - cos s) - (e * cos (p - a) - cos (s - a))) ^ 2 =
      (2 - 2 * cos a) * (1 + e ^ 2 - 2 * e * cos (s - p)) := by
    rw [sin_sub, sin_sub, cos_sub, cos_sub, cos_sub]
    grind
  have c1 : 2 - 2 * cos a ≤ a ^ 2 := by have := one_sub_sq_div_two_le_cos (x := a); linarith
  have c0 : 0 ≤ 2 - 2 * cos a := by linarith [cos_le_one a]
  have b1 : 1 + e ^ 2 - 2 * e * cos (s - p) ≤ (1 + |e|) ^ 2 := by
    have : -(e * cos (s - p)) ≤ |e| := by
      refine (neg_le_abs _).trans ?_
      rw [abs_mul]
      exact mul_le_of_le_one_right (abs_nonneg _) (abs_cos_le_one _)
    nlinarith [sq_abs e]
  rw [i, mul_pow, sq_abs, mul_comm]
  calc (1 + e ^ 2 - 2 * e * cos (s - p)) * (2 - 2 * cos a) ≤ (1 + |e|) ^ 2 * (2 - 2 * cos a) := by gcongr
    _ ≤ (1 + |e|) ^ 2 * a ^ 2 := by gcongr

set_option maxHeartbeats 1000000 in
/-- **C177.**  Aberration and AberrationRonVondrak displace a star equally within 0.06 arc second, and 0.52 arc second more a century from 2000 (the
former refers to the equinox of the date, the latter to that of 2000), from 1900 to 2100. -/
theorem C177_of_date (jd α δ : ℝ) (hT : |J2000Century jd| ≤ 1) (hδ : cos δ ≠ 0) :
    let Δ := AberrationJD α δ jd
    let Δ' := AberrationRonVondrakJD α δ jd
    |(Δ.1 - Δ'.1) * cos δ| ≤ (0.06 + 0.52 * |J2000Century jd|) * sec ∧ |Δ.2 - Δ'.2| ≤ (0.06 + 0.52 * |J2000Century jd|) * sec := by
  intro Δ Δ'
  obtain ⟨k1, k2⟩ := C177_ron_vondrak jd α δ hT hδ
  obtain ⟨T, hTT⟩ : ∃ T, T = J2000Century jd := ⟨_, rfl⟩
  have hk : 0 < kappa := by unfold kappa; positivity
  have hs : 0 < sec := by unfold sec; positivity
  have hks : kappa = 20.49552 * sec := by unfold kappa sec; ring
  obtain ⟨d0, d1⟩ := deg_num
  have hsd : sec = deg / 3600 := by unfold sec deg; ring
  have ho0 : MeanObliquity 2451545 = 84381.448 * sec := by
    unfold MeanObliquity J2000Century
    simp only [hornerR, List.foldr_cons, List.foldr_nil]
    norm_num
  have ho : |MeanObliquity jd - MeanObliquity 2451545| ≤ 0.000228 * |T| := by
    rw [ho0]
    unfold MeanObliquity
    rw [← hTT]
    simp only [hornerR, List.foldr_cons, List.foldr_nil]
    have e : (((0 * T + 0.001813) * T + -0.00059) * T + -46.815) * T + 84381.448 = 84381.448 + (-46.815 - 0.00059 * T + 0.001813 * T ^ 2) * T := by ring
    rw [e, add_mul, add_sub_cancel_left, abs_mul, abs_mul, abs_of_pos hs]
    have : |-46.815 - 0.00059 * T + 0.001813 * T ^ 2| ≤ 46.82 := by
      rw [← hTT] at hT
      obtain ⟨t0, t1⟩ := abs_le.1 hT
      have t2 : T ^ 2 ≤ 1 := by nlinarith
      have t2' := sq_nonneg T
      generalize T ^ 2 = q at t2 t2' ⊢
      clear * - t0 t1 t2 t2'
      rw [abs_le]; norm_num at *; constructor <;> linarith
    have e1 : sec ≤ 4.8482e-6 := by rw [hsd]; norm_num at *; linarith
    calc |-46.815 - 0.00059 * T + 0.001813 * T ^ 2| * |T| * sec ≤ 46.82 * |T| * 4.8482e-6 := by gcongr
      _ ≤ _ := by nlinarith [abs_nonneg T]
  have hcε : ∀ ε, |ε - 84381.448 * sec| ≤ 0.000228 → cos ε ≠ 0 := fun ε h => by
    have := (abs_cos_sub_cos_le ε (84381.448 * sec)).trans h
    have e1 := (abs_le.1 rv_eps.1).1
    have := (abs_le.1 this).1
    norm_num at *; linarith
  have hε0 : cos (MeanObliquity 2451545) ≠ 0 := by rw [ho0]; exact hcε _ (by norm_num)
  have hε1 : cos (MeanObliquity jd) ≠ 0 := by
    apply hcε; rw [← ho0]; refine ho.trans ?_; rw [hTT]; nlinarith
  have he : |Solar.Eccentricity T| ≤ 0.0168 := by
    rw [← hTT] at hT
    obtain ⟨t0, t1⟩ := abs_le.1 hT
    have t2 : T ^ 2 ≤ 1 := by nlinarith
    have t2' := sq_nonneg T
    unfold Solar.Eccentricity
    simp only [hornerR, List.foldr_cons, List.foldr_nil]
    rw [abs_le]; norm_num at *; constructor <;> nlinarith
  have hs2 : (Solar.True2000 T).1 = (Solar.TrueLon T).1 - 1.397 * deg * T := by unfold Solar.True2000; ring
  have hΔ : Δ = Aberration (MeanObliquity jd) (Solar.TrueLon T).1 (Solar.Eccentricity T) (perihelion T) α δ := by rw [hTT]; rfl
  rw [← hTT] at k1 k2 ⊢
  rw [hs2] at k1 k2
  have turn := velocity_turned (Solar.TrueLon T).1 (Solar.Eccentricity T) (perihelion T) (1.397 * deg * T)
  have n0 : ∀ s p, |Solar.Eccentricity T * cos p - cos s| ≤ 1 + |Solar.Eccentricity T| := fun s p => by
    have := mul_le_of_le_one_right (abs_nonneg (Solar.Eccentricity T)) (abs_cos_le_one p)
    rw [← abs_mul] at this
    refine (abs_sub _ _).trans ?_
    linarith [abs_cos_le_one s]
  have n1 := n0 (Solar.TrueLon T).1 (perihelion T)
  clear n0
  generalize Solar.Eccentricity T = e at *
  generalize (Solar.TrueLon T).1 = s at *
  generalize perihelion T = p at *
  rw [aberration_velocity hε0] at k1 k2
  rw [aberration_velocity hε1] at hΔ
  rw [hΔ]
  dsimp only at k1 k2 ⊢
  have hc0 := sin_sq_add_cos_sq (MeanObliquity 2451545)
  have q1 := (abs_cos_sub_cos_le _ _).trans ho
  have q2 := (abs_sin_sub_sin_le _ _).trans ho
  have a0 : |1.397 * deg * T| ≤ 0.024383 * |T| := by
    rw [abs_mul]
    gcongr
    rw [abs_of_pos (by norm_num at *; linarith)]
    norm_num at *; linarith
  obtain ⟨X', hX'⟩ : ∃ x, x = sin (s - 1.397 * deg * T) - e * sin (p - 1.397 * deg * T) := ⟨_, rfl⟩
  obtain ⟨W', hW'⟩ : ∃ x, x = e * cos (p - 1.397 * deg * T) - cos (s - 1.397 * deg * T) := ⟨_, rfl⟩
  rw [← hX', ← hW'] at k1 k2 turn
  generalize sin s - e * sin p = X at *
  generalize e * cos p - cos s = W at *
  generalize MeanObliquity 2451545 = ε at *
  generalize MeanObliquity jd = ε' at *
  have tn := abs_nonneg T
  have p1 := displacement_sq (x := X - X') (y := cos ε * (W - W')) (z := sin ε * (W - W')) (α := α) (δ := δ) (q := 0.0247927 * |T|) (by positivity) (by
    have i : (X - X') ^ 2 + (cos ε * (W - W')) ^ 2 + (sin ε * (W - W')) ^ 2 = (X - X') ^ 2 + (W - W') ^ 2 := by
      rw [show (X - X') ^ 2 + (cos ε * (W - W')) ^ 2 + (sin ε * (W - W')) ^ 2 = (X - X') ^ 2 + (sin ε ^ 2 + cos ε ^ 2) * (W - W') ^ 2 by ring, hc0, one_mul]
    rw [i]
    refine turn.trans ?_
    have : (1 + |e|) * |1.397 * deg * T| ≤ 0.0247927 * |T| := by
      calc (1 + |e|) * |1.397 * deg * T| ≤ (1 + 0.0168) * (0.024383 * |T|) := by gcongr
        _ ≤ _ := by clear * - tn; generalize |T| = t at *; norm_num; linarith
    gcongr)
  have p2 := displacement_sq (x := 0) (y := (cos ε' - cos ε) * W) (z := (sin ε' - sin ε) * W) (α := α) (δ := δ) (q := 0.00033 * |T|) (by positivity) (by
    have b1 : |(cos ε' - cos ε) * W| ≤ 0.000228 * |T| * (1 + 0.0168) := by rw [abs_mul]; gcongr; linarith
    have b2 : |(sin ε' - sin ε) * W| ≤ 0.000228 * |T| * (1 + 0.0168) := by rw [abs_mul]; gcongr; linarith
    have c1 := sq_le_sq' (abs_le.1 b1).1 (abs_le.1 b1).2
    have c2 := sq_le_sq' (abs_le.1 b2).1 (abs_le.1 b2).2
    have : (0.000228 * |T| * (1 + 0.0168)) ^ 2 = 0.000228 ^ 2 * 1.0168 ^ 2 * |T| ^ 2 := by ring
    have : (0.00033 * |T|) ^ 2 = 0.00033 ^ 2 * |T| ^ 2 := by ring
    have := sq_nonneg |T|
    norm_num at *; nlinarith)
  have fin : ∀ A B C D : ℝ, |A| ≤ 0.06 * sec → |B| ≤ 0.0247927 * |T| → |C| ≤ 0.00033 * |T| → D = A + kappa * (B + C) →
      |D| ≤ (0.06 + 0.52 * |T|) * sec := fun A B C D hA hB hC hD => by
    have h1 : |kappa * (B + C)| ≤ 20.49552 * sec * (0.0251227 * |T|) := by
      rw [abs_mul, abs_of_pos hk, hks]
      gcongr
      refine (abs_add_le _ _).trans ?_
      linarith
    rw [hD]
    refine (abs_add_le _ _).trans ?_
    have : 0 ≤ sec * |T| := by positivity
    clear * - hA h1 this
    generalize |kappa * (B + C)| = u at *
    generalize |A| = v at *
    norm_num at *; nlinarith
  refine ⟨fin _ _ _ _ k1 p1.1 p2.1 ?_, fin _ _ _ _ k2 p1.2 p2.2 ?_⟩
  · field_simp; ring
  · ring

/-- **C177.**  The aberration of the Sun by the general formula is that used for the apparent longitude of the Sun, within 0.0004 arc second, from
1000 to 3000. -/
theorem C177_sun (jd : ℝ) (hT : |J2000Century jd| ≤ 10) :
    |(EclipticAberrationJD (Solar.TrueLon (J2000Century jd)).1 0 jd).1 - Solar.aberration (Solar.Radius (J2000Century jd))| ≤ 0.0004 * sec := by
  unfold EclipticAberrationJD
  generalize J2000Century jd = T at *
  dsimp only
  obtain ⟨t0, t1⟩ := abs_le.1 hT
  have t2 : T ^ 2 ≤ 100 := by nlinarith
  have t2' := sq_nonneg T
  obtain ⟨d0, d1⟩ := deg_num
  have hs : 0 < sec := by unfold sec; positivity
  have hc : cos (perihelion T - (Solar.TrueLon T).1) = -cos ((Solar.MeanAnomaly T + Solar.center T) - (-0.00008 * T + 3.1e-6 * T ^ 2) * deg) := by
    have e1 : cos (perihelion T - (Solar.TrueLon T).1) = cos (perihelion T - (Solar.meanLon T + Solar.center T)) := by
      unfold Solar.TrueLon
      rw [cos_sub, cos_sub, cos_mod1, sin_mod1]
    rw [e1, ← cos_pi_sub]
    congr 1
    unfold perihelion Solar.meanLon Solar.MeanAnomaly
    simp only [hornerR, List.foldr_cons, List.foldr_nil]
    have : π = 180 * deg := by unfold deg; ring
    rw [this]
    ring
  have hν : cos (Solar.TrueLon T).2 = cos (Solar.MeanAnomaly T + Solar.center T) := by unfold Solar.TrueLon; rw [cos_mod1]
  have hη : |(-0.00008 * T + 3.1e-6 * T ^ 2) * deg| ≤ 2e-5 := by
    rw [abs_mul, abs_of_pos (show 0 < deg by norm_num at *; linarith)]
    have : |-0.00008 * T + 3.1e-6 * T ^ 2| ≤ 0.00111 := by
      generalize T ^ 2 = q at t2 t2' ⊢
      clear * - t0 t1 t2 t2'
      rw [abs_le]; norm_num at *; constructor <;> linarith
    calc _ ≤ 0.00111 * deg := by gcongr
      _ ≤ _ := by norm_num at *; linarith
  have he : 0.01627 ≤ Solar.Eccentricity T ∧ Solar.Eccentricity T ≤ 0.01713 := by
    unfold Solar.Eccentricity
    simp only [hornerR, List.foldr_cons, List.foldr_nil]
    have e : ((0 * T + -0.0000001267) * T + -0.000042037) * T + 0.016708634 = 0.016708634 - 0.000042037 * T - 0.0000001267 * T ^ 2 := by ring
    rw [e]
    generalize T ^ 2 = q at t2 t2' ⊢
    clear * - t0 t1 t2 t2'
    norm_num at *; constructor <;> linarith
  unfold EclipticAberration Solar.aberration Solar.Radius
  dsimp only
  rw [hc, hν]
  have hd := (abs_cos_sub_cos_le ((Solar.MeanAnomaly T + Solar.center T) - (-0.00008 * T + 3.1e-6 * T ^ 2) * deg) (Solar.MeanAnomaly T + Solar.center T))
  rw [show (Solar.MeanAnomaly T + Solar.center T) - (-0.00008 * T + 3.1e-6 * T ^ 2) * deg - (Solar.MeanAnomaly T + Solar.center T) =
    -((-0.00008 * T + 3.1e-6 * T ^ 2) * deg) by ring, abs_neg] at hd
  replace hd := hd.trans hη
  have hcν := abs_cos_le_one (Solar.MeanAnomaly T + Solar.center T)
  rw [sub_self, cos_zero]
  have hks : kappa = 20.49552 * sec := by unfold kappa sec; ring
  rw [hks]
  generalize cos ((Solar.MeanAnomaly T + Solar.center T) - (-0.00008 * T + 3.1e-6 * T ^ 2) * deg) = c' at *
  generalize cos (Solar.MeanAnomaly T + Solar.center T) = c at *
  generalize Solar.Eccentricity T = e at *
  clear * - hs he hd hcν
  obtain ⟨e0, e1⟩ := he
  have q0 : 2.647e-4 ≤ e * e := by norm_num at *; nlinarith
  have q1 : e * e ≤ 2.9344e-4 := by norm_num at *; nlinarith
  have hD : 0 < 1.000001018 * (1 - e * e) := by norm_num at *; linarith
  have hr : |20.4898 / (1.000001018 * (1 - e * e)) - 20.49552| ≤ 0.00034 := by
    rw [abs_le, le_sub_iff_add_le, sub_le_iff_le_add, le_div_iff₀ hD, div_le_iff₀ hD]
    clear hd hcν
    norm_num at *
    constructor <;> linarith
  have hce : |1 + e * c| ≤ 1.01713 := by
    have : |e * c| ≤ 0.01713 * 1 := by rw [abs_mul, abs_of_pos (show 0 < e by norm_num at *; linarith)]; gcongr
    rw [abs_le] at this ⊢
    norm_num at *; constructor <;> linarith
  have hx : |e * (c' - c)| ≤ 0.01713 * 2e-5 := by rw [abs_mul, abs_of_pos (show 0 < e by norm_num at *; linarith)]; gcongr
  have e : 20.49552 * sec * ((e * -c' - 1) / 1) - -20.4898 * sec / (1.000001018 * (1 - e * e) / (1 + e * c)) =
      ((20.4898 / (1.000001018 * (1 - e * e)) - 20.49552) * (1 + e * c) - 20.49552 * (e * (c' - c))) * sec := by
    have h1 : (1 : ℝ) + e * c ≠ 0 := by
      have : |e * c| ≤ 0.01713 * 1 := by rw [abs_mul, abs_of_pos (show 0 < e by norm_num at *; linarith)]; gcongr
      have := (abs_le.1 this).1
      intro h
      norm_num at *; linarith
    have h2 := hD.ne'
    generalize 1.000001018 * (1 - e * e) = D at *
    field_simp
    ring
  rw [e, abs_mul, abs_of_pos hs]
  refine mul_le_mul_of_nonneg_right ?_ hs.le
  refine (abs_sub _ _).trans ?_
  rw [abs_mul, abs_mul]
  calc _ ≤ 0.00034 * 1.01713 + |(20.49552 : ℝ)| * (0.01713 * 2e-5) := by gcongr
    _ ≤ _ := by norm_num [abs_of_pos]

/-- The theorems apply: half a century after 2000 (2469807.5), a star at right ascension 1, declination 0.5; and the point of the ecliptic at the
equinox. -/
example : |J2000Century 2469807.5| ≤ 1 ∧ cos (0.5 : ℝ) ≠ 0 ∧ dir 0 0 = rotX (MeanObliquity 2451545) (dir 0 0) ∧ cos (0 : ℝ) ≠ 0 := by
  refine ⟨?_, ?_, ?_, by simp⟩
  · unfold J2000Century; norm_num [abs_le]
  · exact (cos_pos_of_le_one (by norm_num [abs_le])).ne'
  · unfold dir; rw [rotX_vec]; simp

end Verif.Props
