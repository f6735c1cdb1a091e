import Verif.Lemmas.Laurent
import Verif.Lemmas.TrigNum
import Mathlib.Analysis.SpecialFunctions.Trigonometric.Bounds
/-
Sums of periodic terms at a neighbouring instant: Taylor's formula, and bounds of the change when the angles change.
-/
namespace Verif.Lemmas.Laurent

open Real

/-- Rates of the four angles. -/
structure Rate where
  D : ℤ
  M : ℤ
  P : ℤ
  F : ℤ

def Tm.wt (w : Rate) (t : Tm) : ℤ := w.D * t.d + w.M * t.m + w.P * t.p + w.F * t.f

noncomputable def Pt.shift (x : Pt) (w : Rate) (y : ℝ) : Pt := ⟨x.D + w.D * y, x.M + w.M * y, x.P + w.P * y, x.F + w.F * y, x.E⟩

theorem ang_shift (x : Pt) (w : Rate) (y : ℝ) (t : Tm) : t.ang (x.shift w y) = t.ang x + t.wt w * y := by
  unfold Tm.ang Pt.shift Tm.wt; push_cast; ring

def Tm.w1 (w : Rate) (t : Tm) : Tm := { t with c := t.c * t.wt w }
def Tm.w2 (w : Rate) (t : Tm) : Tm := { t with c := t.c * t.wt w * t.wt w }
def Tm.w3 (w : Rate) (t : Tm) : Tm := { t with c := t.c * t.wt w * t.wt w * t.wt w }

theorem sin_near (h : ℝ) : |sin h - h| ≤ |h| ^ 3 / 6 := by
  have key : ∀ h : ℝ, 0 ≤ h → |sin h - h| ≤ h ^ 3 / 6 := by
    intro h h0
    rw [abs_le]
    have h1 := Real.sin_ge_sub_cube h0
    have h2 := Real.sin_le h0
    constructor
    · linarith
    · have : 0 ≤ h ^ 3 := by positivity
      linarith
  rcases le_total 0 h with h0 | h0
  · rw [abs_of_nonneg h0]; exact key h h0
  · rw [abs_of_nonpos h0]
    have := key (-h) (by linarith)
    rwa [Real.sin_neg, show -sin h - -h = -(sin h - h) by ring, abs_neg] at this

theorem cos_near {h : ℝ} (hh : |h| ≤ 1) : |cos h - (1 - h ^ 2 / 2)| ≤ |h| ^ 4 / 24 := by
  rw [← Real.cos_abs, ← sq_abs]
  have h0 := abs_nonneg h
  generalize |h| = a at *
  have h1 := Real.one_sub_sq_div_two_le_cos (x := a)
  have h2 := cos_quartic h0 (by linarith)
  rw [abs_le]
  have : 0 ≤ a ^ 4 := by positivity
  constructor <;> linarith

theorem sin_taylor2 (a : ℝ) {h : ℝ} (hh : |h| ≤ 1) : |sin (a + h) - (sin a + h * cos a - h ^ 2 / 2 * sin a)| ≤ 5 / 24 * |h| ^ 3 := by
  rw [show sin (a + h) - (sin a + h * cos a - h ^ 2 / 2 * sin a) = sin a * (cos h - (1 - h ^ 2 / 2)) + cos a * (sin h - h) by rw [sin_add]; ring]
  refine (abs_add_le _ _).trans ?_
  rw [abs_mul, abs_mul]
  have h1 := mul_le_of_le_one_left (abs_nonneg (cos h - (1 - h ^ 2 / 2))) (abs_sin_le_one a)
  have h2 := mul_le_of_le_one_left (abs_nonneg (sin h - h)) (abs_cos_le_one a)
  have h3 := sin_near h
  have h4 := cos_near hh
  have h5 : |h| ^ 4 ≤ |h| ^ 3 := by
    rw [pow_succ]
    exact mul_le_of_le_one_right (by positivity) hh
  linarith

/-- The powers of E are at most 2. -/
def emax2 (p : List Tm) : Bool := p.all fun t => Nat.ble t.e 2

theorem pow_E {E : ℝ} (hE : |E| ≤ 1.03) {n : ℕ} (hn : n ≤ 2) : |E| ^ n ≤ 1.061 := by
  have h0 := abs_nonneg E
  interval_cases n
  · norm_num
  · norm_num at *; linarith
  · have := mul_le_mul hE hE h0 (by norm_num)
    rw [sq]; norm_num at *; linarith

theorem sinS_cons (x : Pt) (t : Tm) (p : List Tm) : sinS x (t :: p) = t.c * x.E ^ t.e * sin (t.ang x) + sinS x p := by
  simp [sinS]
theorem cosS_cons (x : Pt) (t : Tm) (p : List Tm) : cosS x (t :: p) = t.c * x.E ^ t.e * cos (t.ang x) + cosS x p := by
  simp [cosS]
theorem sinS_append (x : Pt) (p q : List Tm) : sinS x (p ++ q) = sinS x p + sinS x q := by
  simp [sinS]

theorem natAbs_real (n : ℤ) : ((n.natAbs : ℕ) : ℝ) = |(n : ℝ)| := by
  rw [Nat.cast_natAbs, Int.cast_abs]

theorem sinS_abs (x : Pt) (p : List Tm) (hE : |x.E| ≤ 1.03) (hp : emax2 p = true) : |sinS x p| ≤ 1.061 * l1 p := by
  induction p with
  | nil => simp [sinS, l1]
  | cons t p ih =>
    simp only [emax2, List.all_cons, Bool.and_eq_true, Nat.ble_eq] at hp
    rw [sinS_cons]
    simp only [l1]
    push_cast
    rw [natAbs_real, mul_add]
    refine (abs_add_le _ _).trans (add_le_add ?_ (ih hp.2))
    rw [abs_mul, abs_mul, abs_pow]
    have h1 := pow_E hE hp.1
    calc |(t.c : ℝ)| * |x.E| ^ t.e * |sin (t.ang x)| ≤ |(t.c : ℝ)| * 1.061 * 1 := by
          apply mul_le_mul (mul_le_mul_of_nonneg_left h1 (abs_nonneg _)) (abs_sin_le_one _) (abs_nonneg _) (by positivity)
      _ = _ := by ring

theorem cosS_abs (x : Pt) (p : List Tm) (hE : |x.E| ≤ 1.03) (hp : emax2 p = true) : |cosS x p| ≤ 1.061 * l1 p := by
  induction p with
  | nil => simp [cosS, l1]
  | cons t p ih =>
    simp only [emax2, List.all_cons, Bool.and_eq_true, Nat.ble_eq] at hp
    rw [cosS_cons]
    simp only [l1]
    push_cast
    rw [natAbs_real, mul_add]
    refine (abs_add_le _ _).trans (add_le_add ?_ (ih hp.2))
    rw [abs_mul, abs_mul, abs_pow]
    have h1 := pow_E hE hp.1
    calc |(t.c : ℝ)| * |x.E| ^ t.e * |cos (t.ang x)| ≤ |(t.c : ℝ)| * 1.061 * 1 := by
          apply mul_le_mul (mul_le_mul_of_nonneg_left h1 (abs_nonneg _)) (abs_cos_le_one _) (abs_nonneg _) (by positivity)
      _ = _ := by ring

/-- Taylor's formula of the second order for a sum of terms. -/
theorem taylor_sum (x : Pt) (w : Rate) (y : ℝ) (p : List Tm) (hE : |x.E| ≤ 1.03) (hp : emax2 p = true) (hy : ∀ t ∈ p, |(t.wt w : ℝ) * y| ≤ 1) :
    |sinS (x.shift w y) p - (sinS x p + y * cosS x (p.map (Tm.w1 w)) - y ^ 2 / 2 * sinS x (p.map (Tm.w2 w)))| ≤
      1.061 * (5 / 24) * |y| ^ 3 * l1 (p.map (Tm.w3 w)) := by
  induction p with
  | nil => simp [sinS, cosS, l1]
  | cons t p ih =>
    simp only [emax2, List.all_cons, Bool.and_eq_true, Nat.ble_eq] at hp
    have ih' := ih hp.2 (fun s hs => hy s (List.mem_cons_of_mem _ hs))
    have h1 := sin_taylor2 (t.ang x) (hy t List.mem_cons_self)
    simp only [List.map_cons, sinS_cons, cosS_cons, l1]
    rw [ang_shift]
    have e1 : (t.w1 w).ang x = t.ang x := rfl
    have e2 : (t.w2 w).ang x = t.ang x := rfl
    have e3 : (x.shift w y).E = x.E := rfl
    have e4 : (t.w1 w).e = t.e := rfl
    have e5 : (t.w2 w).e = t.e := rfl
    have c1 : ((t.w1 w).c : ℝ) = t.c * t.wt w := by simp [Tm.w1]
    have c2 : ((t.w2 w).c : ℝ) = t.c * t.wt w * t.wt w := by simp [Tm.w2]
    have c3 : (((t.w3 w).c.natAbs : ℕ) : ℝ) = |(t.c : ℝ)| * |(t.wt w : ℝ)| ^ 3 := by
      rw [natAbs_real]
      simp only [Tm.w3]
      push_cast
      rw [abs_mul, abs_mul, abs_mul]; ring
    rw [e1, e2, e3, e4, e5, c1, c2, Nat.cast_add, c3]
    generalize (t.wt w : ℝ) = W at *
    generalize t.ang x = a at *
    rw [show (t.c : ℝ) * x.E ^ t.e * sin (a + W * y) + sinS (x.shift w y) p -
        (t.c * x.E ^ t.e * sin a + sinS x p + y * (t.c * W * x.E ^ t.e * cos a + cosS x (p.map (Tm.w1 w))) -
          y ^ 2 / 2 * (t.c * W * W * x.E ^ t.e * sin a + sinS x (p.map (Tm.w2 w)))) =
        t.c * x.E ^ t.e * (sin (a + W * y) - (sin a + W * y * cos a - (W * y) ^ 2 / 2 * sin a)) +
        (sinS (x.shift w y) p - (sinS x p + y * cosS x (p.map (Tm.w1 w)) - y ^ 2 / 2 * sinS x (p.map (Tm.w2 w)))) by ring, mul_add]
    refine (abs_add_le _ _).trans (add_le_add ?_ ih')
    rw [abs_mul, abs_mul, abs_pow]
    have h2 := pow_E hE hp.1
    calc |(t.c : ℝ)| * |x.E| ^ t.e * |sin (a + W * y) - (sin a + W * y * cos a - (W * y) ^ 2 / 2 * sin a)|
        ≤ |(t.c : ℝ)| * 1.061 * (5 / 24 * |W * y| ^ 3) := by
          apply mul_le_mul (mul_le_mul_of_nonneg_left h2 (abs_nonneg _)) h1 (abs_nonneg _) (by positivity)
      _ = _ := by rw [abs_mul]; ring

/-- The change of a sum along the motion. -/
theorem shift_lip (x : Pt) (w : Rate) (y z : ℝ) (p : List Tm) (hE : |x.E| ≤ 1.03) (hp : emax2 p = true) :
    |sinS (x.shift w y) p - sinS (x.shift w z) p| ≤ 1.061 * |y - z| * l1 (p.map (Tm.w1 w)) := by
  induction p with
  | nil => simp [sinS, l1]
  | cons t p ih =>
    simp only [emax2, List.all_cons, Bool.and_eq_true, Nat.ble_eq] at hp
    simp only [List.map_cons, sinS_cons, l1]
    rw [ang_shift, ang_shift, Nat.cast_add]
    have c1 : (((t.w1 w).c.natAbs : ℕ) : ℝ) = |(t.c : ℝ)| * |(t.wt w : ℝ)| := by
      rw [natAbs_real]; simp [Tm.w1, abs_mul]
    have e3 : (x.shift w y).E = x.E := rfl
    have e4 : (x.shift w z).E = x.E := rfl
    rw [c1, e3, e4, mul_add, show (t.c : ℝ) * x.E ^ t.e * sin (t.ang x + t.wt w * y) + sinS (x.shift w y) p -
      (t.c * x.E ^ t.e * sin (t.ang x + t.wt w * z) + sinS (x.shift w z) p) =
      t.c * x.E ^ t.e * (sin (t.ang x + t.wt w * y) - sin (t.ang x + t.wt w * z)) + (sinS (x.shift w y) p - sinS (x.shift w z) p) by ring]
    refine (abs_add_le _ _).trans (add_le_add ?_ (ih hp.2))
    rw [abs_mul, abs_mul, abs_pow]
    have h2 := pow_E hE hp.1
    have h1 : |sin (t.ang x + t.wt w * y) - sin (t.ang x + t.wt w * z)| ≤ |(t.wt w : ℝ)| * |y - z| := by
      have := Real.abs_sin_sub_sin_le (t.ang x + t.wt w * y) (t.ang x + t.wt w * z)
      rwa [show t.ang x + t.wt w * y - (t.ang x + t.wt w * z) = t.wt w * (y - z) by ring, abs_mul] at this
    calc |(t.c : ℝ)| * |x.E| ^ t.e * |sin (t.ang x + t.wt w * y) - sin (t.ang x + t.wt w * z)|
        ≤ |(t.c : ℝ)| * 1.061 * (|(t.wt w : ℝ)| * |y - z|) := by
          apply mul_le_mul (mul_le_mul_of_nonneg_left h2 (abs_nonneg _)) h1 (abs_nonneg _) (by positivity)
      _ = _ := by ring

/-- Σ |c| (|d| + |m| + |p| + |f| + e). -/
def lipn : List Tm → ℕ
  | [] => 0
  | t :: l => t.c.natAbs * (t.d.natAbs + t.m.natAbs + t.p.natAbs + t.f.natAbs + t.e) + lipn l

/-- Two points with angles equal, modulo turns, within δ. -/
structure Close (x x' : Pt) (δ : ℝ) : Prop where
  D : ∃ n : ℤ, |x.D - x'.D - n * (2 * π)| ≤ δ
  M : ∃ n : ℤ, |x.M - x'.M - n * (2 * π)| ≤ δ
  P : ∃ n : ℤ, |x.P - x'.P - n * (2 * π)| ≤ δ
  F : ∃ n : ℤ, |x.F - x'.F - n * (2 * π)| ≤ δ
  E : |x.E - x'.E| ≤ δ

theorem close_ang {x x' : Pt} {δ : ℝ} (h : Close x x' δ) (t : Tm) :
    |sin (t.ang x) - sin (t.ang x')| ≤ (t.d.natAbs + t.m.natAbs + t.p.natAbs + t.f.natAbs : ℕ) * δ := by
  obtain ⟨⟨n1, h1⟩, ⟨n2, h2⟩, ⟨n3, h3⟩, ⟨n4, h4⟩, -⟩ := h
  have e : sin (t.ang x') = sin (t.ang x' + (t.d * n1 + t.m * n2 + t.p * n3 + t.f * n4 : ℤ) * (2 * π)) := (Real.sin_add_int_mul_two_pi _ _).symm
  rw [e]
  refine (Real.abs_sin_sub_sin_le _ _).trans ?_
  have e2 : t.ang x - (t.ang x' + (t.d * n1 + t.m * n2 + t.p * n3 + t.f * n4 : ℤ) * (2 * π)) =
      t.d * (x.D - x'.D - n1 * (2 * π)) + t.m * (x.M - x'.M - n2 * (2 * π)) + t.p * (x.P - x'.P - n3 * (2 * π)) + t.f * (x.F - x'.F - n4 * (2 * π)) := by
    unfold Tm.ang; push_cast; ring
  rw [e2]
  have hm : ∀ (n : ℤ) (z : ℝ), |z| ≤ δ → |(n : ℝ) * z| ≤ (n.natAbs : ℕ) * δ := by
    intro n z hz
    rw [abs_mul, natAbs_real]
    exact mul_le_mul_of_nonneg_left hz (abs_nonneg _)
  have k1 := hm t.d _ h1
  have k2 := hm t.m _ h2
  have k3 := hm t.p _ h3
  have k4 := hm t.f _ h4
  refine (abs_add_le _ _).trans ?_
  have k5 := abs_add_le ((t.d : ℝ) * (x.D - x'.D - n1 * (2 * π)) + t.m * (x.M - x'.M - n2 * (2 * π))) (t.p * (x.P - x'.P - n3 * (2 * π)))
  have k6 := abs_add_le ((t.d : ℝ) * (x.D - x'.D - n1 * (2 * π))) (t.m * (x.M - x'.M - n2 * (2 * π)))
  push_cast at *
  linarith

theorem pow_diff {E E' : ℝ} (hE : |E| ≤ 1.03) (hE' : |E'| ≤ 1.03) {n : ℕ} (hn : n ≤ 2) : |E ^ n - E' ^ n| ≤ 1.061 * n * |E - E'| := by
  have h0 := abs_nonneg (E - E')
  interval_cases n
  · simp
  · norm_num; linarith
  · rw [show E ^ 2 - E' ^ 2 = (E + E') * (E - E') by ring, abs_mul]
    refine mul_le_mul_of_nonneg_right ((abs_add_le _ _).trans ?_) h0
    norm_num at *
    linarith

/-- The change of a sum between neighbouring points. -/
theorem close_lip {x x' : Pt} {δ : ℝ} (h : Close x x' δ) (p : List Tm) (hE : |x.E| ≤ 1.03) (hE' : |x'.E| ≤ 1.03) (hp : emax2 p = true) :
    |sinS x p - sinS x' p| ≤ 1.061 * δ * lipn p := by
  induction p with
  | nil => simp [sinS, lipn]
  | cons t p ih =>
    simp only [emax2, List.all_cons, Bool.and_eq_true, Nat.ble_eq] at hp
    simp only [sinS_cons, lipn]
    rw [Nat.cast_add, mul_add, show (t.c : ℝ) * x.E ^ t.e * sin (t.ang x) + sinS x p - (t.c * x'.E ^ t.e * sin (t.ang x') + sinS x' p) =
      t.c * (x.E ^ t.e * (sin (t.ang x) - sin (t.ang x')) + (x.E ^ t.e - x'.E ^ t.e) * sin (t.ang x')) + (sinS x p - sinS x' p) by ring]
    refine (abs_add_le _ _).trans (add_le_add ?_ (ih hp.2))
    have h1 := close_ang h t
    have h2 := pow_E hE hp.1
    have h3 := (pow_diff hE hE' hp.1).trans (mul_le_mul_of_nonneg_left h.E (by positivity))
    rw [abs_mul, Nat.cast_mul, natAbs_real]
    have h4 : |x.E ^ t.e * (sin (t.ang x) - sin (t.ang x')) + (x.E ^ t.e - x'.E ^ t.e) * sin (t.ang x')| ≤
        1.061 * ((t.d.natAbs + t.m.natAbs + t.p.natAbs + t.f.natAbs : ℕ) * δ) + 1.061 * t.e * δ := by
      refine (abs_add_le _ _).trans (add_le_add ?_ ?_)
      · rw [abs_mul, abs_pow]
        exact mul_le_mul h2 h1 (abs_nonneg _) (by norm_num)
      · rw [abs_mul]
        exact (mul_le_of_le_one_right (abs_nonneg _) (abs_sin_le_one _)).trans h3
    refine (mul_le_mul_of_nonneg_left h4 (abs_nonneg _)).trans (le_of_eq ?_)
    push_cast
    ring

end Verif.Lemmas.Laurent
