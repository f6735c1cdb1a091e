import Verif.Lemmas.LaurentShift
/-
Sums of cosines at a neighbouring instant: Taylor's formula of the first order, and bounds of the change when the angles change.
-/
namespace Verif.Lemmas.Laurent

open Real

theorem cos_taylor1 (a : ℝ) {h : ℝ} (hh : |h| ≤ 1) : |cos (a + h) - (cos a - h * sin a)| ≤ 2 / 3 * h ^ 2 := by
  have h1 : |cos h - 1| ≤ h ^ 2 / 2 := by
    rw [abs_le]
    constructor <;> linarith [one_sub_sq_div_two_le_cos (x := h), cos_le_one h, sq_nonneg h]
  have h2 : |sin h - h| ≤ h ^ 2 / 6 := by
    refine (sin_near h).trans ?_
    rw [← sq_abs h]
    nlinarith [abs_nonneg h, sq_nonneg |h|]
  rw [cos_add, show cos a * cos h - sin a * sin h - (cos a - h * sin a) = cos a * (cos h - 1) - sin a * (sin h - h) by ring]
  refine (abs_sub _ _).trans ?_
  rw [abs_mul, abs_mul]
  have := mul_le_mul (abs_cos_le_one a) h1 (abs_nonneg _) zero_le_one
  have := mul_le_mul (abs_sin_le_one a) h2 (abs_nonneg _) zero_le_one
  linarith

/-- Taylor's formula of the first order for a sum of terms. -/
theorem taylor_cos (x : Pt) (w : Rate) (y : ℝ) (p : List Tm) (hE : |x.E| ≤ 1.03) (hp : emax2 p = true) (hy : ∀ t ∈ p, |(t.wt w : ℝ) * y| ≤ 1) :
    |cosS (x.shift w y) p - (cosS x p - y * sinS x (p.map (Tm.w1 w)))| ≤ 1.061 * (2 / 3) * y ^ 2 * l1 (p.map (Tm.w2 w)) := by
  induction p with
  | nil => simp [sinS, cosS, l1]
  | cons t p ih =>
    simp only [emax2, List.all_cons, Bool.and_eq_true, Nat.ble_eq] at hp
    have ih' := ih hp.2 (fun s hs => hy s (List.mem_cons_of_mem _ hs))
    have h1 := cos_taylor1 (t.ang x) (hy t List.mem_cons_self)
    simp only [List.map_cons, sinS_cons, cosS_cons, l1]
    rw [ang_shift]
    have e1 : (t.w1 w).ang x = t.ang x := rfl
    have e3 : (x.shift w y).E = x.E := rfl
    have e4 : (t.w1 w).e = t.e := rfl
    have c1 : ((t.w1 w).c : ℝ) = t.c * t.wt w := by simp [Tm.w1]
    have c3 : (((t.w2 w).c.natAbs : ℕ) : ℝ) = |(t.c : ℝ)| * |(t.wt w : ℝ)| ^ 2 := by
      rw [natAbs_real]
      simp only [Tm.w2]
      push_cast
      rw [abs_mul, abs_mul]; ring
    rw [e1, e3, e4, c1, Nat.cast_add, c3]
    generalize (t.wt w : ℝ) = W at *
    generalize t.ang x = a at *
    rw [show (t.c : ℝ) * x.E ^ t.e * cos (a + W * y) + cosS (x.shift w y) p -
        (t.c * x.E ^ t.e * cos a + cosS x p - y * (t.c * W * x.E ^ t.e * sin a + sinS x (p.map (Tm.w1 w)))) =
        t.c * x.E ^ t.e * (cos (a + W * y) - (cos a - W * y * sin a)) +
        (cosS (x.shift w y) p - (cosS x p - y * sinS x (p.map (Tm.w1 w)))) by ring, mul_add]
    refine (abs_add_le _ _).trans (add_le_add ?_ ih')
    rw [abs_mul, abs_mul, abs_pow]
    have h2 := pow_E hE hp.1
    calc |(t.c : ℝ)| * |x.E| ^ t.e * |cos (a + W * y) - (cos a - W * y * sin a)|
        ≤ |(t.c : ℝ)| * 1.061 * (2 / 3 * (W * y) ^ 2) := by
          apply mul_le_mul (mul_le_mul_of_nonneg_left h2 (abs_nonneg _)) h1 (abs_nonneg _) (by positivity)
      _ = _ := by rw [sq_abs]; ring

theorem close_ang_cos {x x' : Pt} {δ : ℝ} (h : Close x x' δ) (t : Tm) :
    |cos (t.ang x) - cos (t.ang x')| ≤ (t.d.natAbs + t.m.natAbs + t.p.natAbs + t.f.natAbs : ℕ) * δ := by
  obtain ⟨⟨n1, h1⟩, ⟨n2, h2⟩, ⟨n3, h3⟩, ⟨n4, h4⟩, -⟩ := h
  have e : cos (t.ang x') = cos (t.ang x' + (t.d * n1 + t.m * n2 + t.p * n3 + t.f * n4 : ℤ) * (2 * π)) := (Real.cos_add_int_mul_two_pi _ _).symm
  rw [e]
  refine (Real.abs_cos_sub_cos_le _ _).trans ?_
  have e2 : t.ang x - (t.ang x' + (t.d * n1 + t.m * n2 + t.p * n3 + t.f * n4 : ℤ) * (2 * π)) =
      t.d * (x.D - x'.D - n1 * (2 * π)) + t.m * (x.M - x'.M - n2 * (2 * π)) + t.p * (x.P - x'.P - n3 * (2 * π)) + t.f * (x.F - x'.F - n4 * (2 * π)) := by
    unfold Tm.ang; push_cast; ring
  rw [e2]
  have hm : ∀ (n : ℤ) (z : ℝ), |z| ≤ δ → |(n : ℝ) * z| ≤ (n.natAbs : ℕ) * δ := by
    intro n z hz
    rw [abs_mul, natAbs_real]
    exact mul_le_mul_of_nonneg_left hz (abs_nonneg _)
  have k1 := hm t.d _ h1
  have k2 := hm t.m _ h2
  have k3 := hm t.p _ h3
  have k4 := hm t.f _ h4
  refine (abs_add_le _ _).trans ?_
  have k5 := abs_add_le ((t.d : ℝ) * (x.D - x'.D - n1 * (2 * π)) + t.m * (x.M - x'.M - n2 * (2 * π))) (t.p * (x.P - x'.P - n3 * (2 * π)))
  have k6 := abs_add_le ((t.d : ℝ) * (x.D - x'.D - n1 * (2 * π))) (t.m * (x.M - x'.M - n2 * (2 * π)))
  push_cast at *
  linarith

/-- The change of a sum of cosines between neighbouring points. -/
theorem close_lip_cos {x x' : Pt} {δ : ℝ} (h : Close x x' δ) (p : List Tm) (hE : |x.E| ≤ 1.03) (hE' : |x'.E| ≤ 1.03) (hp : emax2 p = true) :
    |cosS x p - cosS x' p| ≤ 1.061 * δ * lipn p := by
  induction p with
  | nil => simp [cosS, lipn]
  | cons t p ih =>
    simp only [emax2, List.all_cons, Bool.and_eq_true, Nat.ble_eq] at hp
    simp only [cosS_cons, lipn]
    rw [Nat.cast_add, mul_add, show (t.c : ℝ) * x.E ^ t.e * cos (t.ang x) + cosS x p - (t.c * x'.E ^ t.e * cos (t.ang x') + cosS x' p) =
      t.c * (x.E ^ t.e * (cos (t.ang x) - cos (t.ang x')) + (x.E ^ t.e - x'.E ^ t.e) * cos (t.ang x')) + (cosS x p - cosS x' p) by ring]
    refine (abs_add_le _ _).trans (add_le_add ?_ (ih hp.2))
    have h1 := close_ang_cos h t
    have h2 := pow_E hE hp.1
    have h3 := (pow_diff hE hE' hp.1).trans (mul_le_mul_of_nonneg_left h.E (by positivity))
    rw [abs_mul, Nat.cast_mul, natAbs_real]
    have h4 : |x.E ^ t.e * (cos (t.ang x) - cos (t.ang x')) + (x.E ^ t.e - x'.E ^ t.e) * cos (t.ang x')| ≤
        1.061 * ((t.d.natAbs + t.m.natAbs + t.p.natAbs + t.f.natAbs : ℕ) * δ) + 1.061 * t.e * δ := by
      refine (abs_add_le _ _).trans (add_le_add ?_ ?_)
      · rw [abs_mul, abs_pow]
        exact mul_le_mul h2 h1 (abs_nonneg _) (by norm_num)
      · rw [abs_mul]
        exact (mul_le_of_le_one_right (abs_nonneg _) (abs_cos_le_one _)).trans h3
    refine (mul_le_mul_of_nonneg_left h4 (abs_nonneg _)).trans (le_of_eq ?_)
    push_cast
    ring

end Verif.Lemmas.Laurent
