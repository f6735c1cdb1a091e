import Verif.Props.Coord64
/-
C192: longitude, right ascension and azimuth from the conversions of coordinates in double precision.
-/
namespace Verif.Props

open Real Verif.Spec Verif.Model Verif.Go Verif.Go.F64 Verif.Go.F64.Ex

/-- What is assumed of math.Atan2, of any sign of its arguments; a whole turn does not matter. -/
def Atan2Ok (f : Sep64.Inv) : Prop := ∀ y x, |f.atan2 y x| ≤ 4 ∧ ∃ k : ℤ, |f.atan2 y x - Verif.Go.atan2 y x - k * (2 * π)| ≤ 1e-15

/-- What is assumed of unit.RAFromRad. -/
def RedOk (red : ℝ → ℝ) : Prop := ∀ x, |x| ≤ 32 → ∃ k : ℤ, |red x - x - k * (2 * π)| ≤ 4e-15

namespace Coord64v

open Coord64

/-- The direction of a vector near R (cos a, sin a). -/
theorem arg_near {x y a R e : ℝ} (hR : 0 ≤ R) (h : |x - R * Real.cos a| + |y - R * Real.sin a| ≤ e) :
    ∃ k : ℤ, R * |Verif.Go.atan2 y x - a - k * (2 * π)| ≤ π * e := by
  have hπ := pi_pos
  obtain ⟨p1, p2⟩ := atan2_polar y x
  set θ := Verif.Go.atan2 y x
  set ρ := √(x ^ 2 + y ^ 2)
  have hρ : 0 ≤ ρ := sqrt_nonneg _
  refine ⟨round ((θ - a) / (2 * π)), ?_⟩
  set k := round ((θ - a) / (2 * π))
  have hk := abs_sub_round ((θ - a) / (2 * π))
  set d := θ - a - k * (2 * π) with hd
  have d1 : |d| ≤ π := by
    have : d = ((θ - a) / (2 * π) - k) * (2 * π) := by rw [hd]; field_simp
    rw [this, abs_mul, abs_of_pos (by positivity : 0 < 2 * π)]
    nlinarith
  have sd : Real.sin d = Real.sin (θ - a) := by rw [hd]; exact Real.sin_sub_int_mul_two_pi _ _
  have cd : Real.cos d = Real.cos (θ - a) := by rw [hd]; exact Real.cos_sub_int_mul_two_pi _ _
  set u := x - R * Real.cos a
  set w := y - R * Real.sin a
  have hu := abs_nonneg u
  have hw := abs_nonneg w
  have e0 : 0 ≤ e := by linarith
  have es : R * Real.sin d = w * Real.cos θ - u * Real.sin θ := by
    rw [sd, Real.sin_sub]
    simp only [u, w]
    linear_combination (Real.cos θ) * p2 - (Real.sin θ) * p1
  have ec : ρ - R * Real.cos d = u * Real.cos θ + w * Real.sin θ := by
    rw [cd, Real.cos_sub]
    simp only [u, w]
    linear_combination (Real.cos θ) * p1 + (Real.sin θ) * p2 - ρ * Real.sin_sq_add_cos_sq θ
  have n2 : (R * Real.sin d) ^ 2 + (ρ - R * Real.cos d) ^ 2 ≤ e ^ 2 := by
    have t : (R * Real.sin d) ^ 2 + (ρ - R * Real.cos d) ^ 2 = u ^ 2 + w ^ 2 := by
      rw [es, ec]
      linear_combination (u ^ 2 + w ^ 2) * Real.sin_sq_add_cos_sq θ
    rw [t, ← sq_abs u, ← sq_abs w]
    nlinarith
  rcases le_or_gt |d| (π / 2) with g | g
  · have m := mul_abs_le_abs_sin g
    rw [div_mul_eq_mul_div, div_le_iff₀ hπ] at m
    have b : R * |Real.sin d| ≤ e := by
      refine abs_le_of_sq_le_sq' (a := R * |Real.sin d|) ?_ e0 |>.2
      rw [mul_pow, sq_abs, ← mul_pow]
      nlinarith [sq_nonneg (ρ - R * Real.cos d)]
    nlinarith [abs_nonneg d]
  · have c0 : Real.cos d ≤ 0 := by
      rw [← Real.cos_abs]
      exact cos_nonpos_of_pi_div_two_le_of_le g.le (by linarith)
    have hRe : R ≤ e := by
      refine abs_le_of_sq_le_sq' (a := R) ?_ e0 |>.2
      have : R ^ 2 = (R * Real.sin d) ^ 2 + (R * Real.cos d) ^ 2 := by linear_combination (-R ^ 2) * Real.sin_sq_add_cos_sq d
      nlinarith [mul_nonneg hR hρ, mul_nonneg (mul_nonneg hR hρ) (neg_nonneg.mpr c0)]
    calc R * |d| ≤ e * π := mul_le_mul hRe d1 (abs_nonneg _) e0
      _ = π * e := mul_comm _ _

/-- The tangent. -/
theorem tan_near {b s c K : ℝ} (hK : Real.cos b * K = 1) (hK0 : 1 ≤ K) (hK1 : K ≤ 400) (hs : |s - Real.sin b| ≤ 1e-15) (hc : |c - Real.cos b| ≤ 1e-15) :
    |fl (s / c) - Real.sin b * K| ≤ 22 / 10000000000000000 * K ^ 2 := by
  have sb := abs_sin_le_one b
  generalize Real.sin b = S at *
  generalize Real.cos b = C at *
  norm_num at hs hc
  obtain ⟨c1, c2⟩ := abs_le.mp hc
  have hC : 1 / 400 ≤ C := by nlinarith
  have hC1 : C ≤ 1 := by nlinarith
  have hc0 : 0 < c := by linarith
  have hcl : C * (1 - 1 / 1000000) ≤ c := by linarith
  have e1 : s / c - S * K = ((s - S) * C - S * (c - C)) * K / c := by
    field_simp
    linear_combination (-s) * hK
  have q : K / c ≤ K ^ 2 * (1 + 1 / 100000) := by
    rw [div_le_iff₀ hc0]
    have : K ^ 2 * (1 + 1 / 100000) * (C * (1 - 1 / 1000000)) ≤ K ^ 2 * (1 + 1 / 100000) * c := mul_le_mul_of_nonneg_left hcl (by positivity)
    nlinarith
  have q0 : 0 ≤ K / c := by positivity
  have n1 : |(s - S) * C - S * (c - C)| ≤ 2 / 1000000000000000 := by
    refine (abs_sub _ _).trans ?_
    rw [abs_mul, abs_mul, abs_of_nonneg (by linarith : 0 ≤ C)]
    have := mul_le_mul hs hC1 (by linarith) (by norm_num)
    have := mul_le_mul sb hc (abs_nonneg _) (by norm_num)
    linarith
  have e2 : |s / c - S * K| ≤ 2 / 1000000000000000 * (K ^ 2 * (1 + 1 / 100000)) := by
    rw [e1, mul_div_assoc, abs_mul, abs_of_nonneg q0]
    exact mul_le_mul n1 q q0 (by norm_num)
  have e3 := fl_err (s / c)
  have K2 : K ≤ K ^ 2 := by nlinarith
  have e4 : |s / c| ≤ K ^ 2 * (11 / 10) := by
    have := abs_sub_abs_le_abs_sub (s / c) (S * K)
    have : |S * K| ≤ K := by
      rw [abs_mul, abs_of_nonneg (by linarith : 0 ≤ K)]
      nlinarith
    nlinarith
  have K1 : 1 ≤ K ^ 2 := by nlinarith
  have e5 : |s / c| / 2 ^ 53 + 1 / 2 ^ 128 ≤ 13 / 100000000000000000 * K ^ 2 := by
    norm_num
    nlinarith
  refine (abs_sub_le _ (s / c) _).trans ((add_le_add (e3.trans e5) e2).trans ?_)
  nlinarith

/-- Sum or difference of two products, rounded in any way. -/
theorem two_prod {a b t d a' b' t' d' K u w : ℝ} (hK : 1 ≤ K) (hK1 : K ≤ 400) (ha : |a| ≤ 1) (hb : |b| ≤ 1) (ht : |t| ≤ K) (hd : |d| ≤ 1)
    (ea : |a' - a| ≤ 1 / 100000000000000) (eb : |b' - b| ≤ 1 / 1000000000000000) (et : |t' - t| ≤ 22 / 10000000000000000 * K ^ 2) (ed : |d' - d| ≤ 1 / 1000000000000000)
    (hu : u = a' * b' ∨ u = fl (a' * b')) (hw : w = t' * d' ∨ w = fl (t' * d')) :
    |fl (u + w) - (a * b + t * d)| ≤ 2 / 100000000000000 * K ^ 2 ∧ |fl (u - w) - (a * b - t * d)| ≤ 2 / 100000000000000 * K ^ 2 := by
  have K1 : 1 ≤ K ^ 2 := by nlinarith
  have K2 : K ≤ K ^ 2 := by nlinarith
  have pab : |a' * b' - a * b| ≤ 112 / 10000000000000000 := by
    have e : a' * b' - a * b = (a' - a) * b + (a' - a) * (b' - b) + a * (b' - b) := by ring
    rw [e]
    refine (abs_add_le _ _).trans ((add_le_add_left (abs_add_le _ _) _).trans ?_)
    rw [abs_mul, abs_mul, abs_mul]
    have := mul_le_mul ea hb (abs_nonneg _) (by norm_num)
    have := mul_le_mul ea eb (abs_nonneg _) (by norm_num)
    have := mul_le_mul ha eb (abs_nonneg _) (by norm_num)
    linarith
  have ptd : |t' * d' - t * d| ≤ 33 / 10000000000000000 * K ^ 2 := by
    have e : t' * d' - t * d = (t' - t) * d + (t' - t) * (d' - d) + t * (d' - d) := by ring
    rw [e]
    refine (abs_add_le _ _).trans ((add_le_add_left (abs_add_le _ _) _).trans ?_)
    rw [abs_mul, abs_mul, abs_mul]
    have := mul_le_mul et hd (abs_nonneg _) (by positivity)
    have := mul_le_mul et ed (abs_nonneg _) (by positivity)
    have := mul_le_mul ht ed (abs_nonneg _) (by linarith)
    linarith
  have rnd : ∀ z : ℝ, ∀ M : ℝ, 1 ≤ M → |z| ≤ M → |fl z - z| ≤ 12 / 100000000000000000 * M := by
    intro z M hM hz
    refine (fl_err z).trans ?_
    norm_num
    linarith
  have sab : |a' * b'| ≤ 101 / 100 := by
    have : |a * b| ≤ 1 := by rw [abs_mul]; nlinarith [abs_nonneg a, abs_nonneg b]
    have := abs_sub_abs_le_abs_sub (a' * b') (a * b)
    linarith
  have std : |t' * d'| ≤ 101 / 100 * K ^ 2 := by
    have : |t * d| ≤ K := by rw [abs_mul]; nlinarith [abs_nonneg t, abs_nonneg d]
    have := abs_sub_abs_le_abs_sub (t' * d') (t * d)
    linarith
  have pu : |u - a * b| ≤ 114 / 10000000000000000 := by
    rcases hu with rfl | rfl
    · linarith
    · refine (abs_sub_le _ (a' * b') _).trans ((add_le_add (rnd _ _ (by norm_num) sab) pab).trans ?_)
      norm_num
  have pw : |w - t * d| ≤ 35 / 10000000000000000 * K ^ 2 := by
    rcases hw with rfl | rfl
    · linarith
    · refine (abs_sub_le _ (t' * d') _).trans ((add_le_add (rnd _ _ (by linarith) std) ptd).trans ?_)
      linarith
  have su : |u| ≤ 102 / 100 := by
    have : |a * b| ≤ 1 := by rw [abs_mul]; nlinarith [abs_nonneg a, abs_nonneg b]
    have := abs_sub_abs_le_abs_sub u (a * b)
    linarith
  have sw : |w| ≤ 102 / 100 * K ^ 2 := by
    have : |t * d| ≤ K := by rw [abs_mul]; nlinarith [abs_nonneg t, abs_nonneg d]
    have := abs_sub_abs_le_abs_sub w (t * d)
    linarith
  constructor
  · have r := rnd (u + w) (3 * K ^ 2) (by linarith) ((abs_add_le _ _).trans (by linarith))
    have e : u + w - (a * b + t * d) = (u - a * b) + (w - t * d) := by ring
    have := abs_add_le (u - a * b) (w - t * d)
    rw [← e] at this
    have := abs_sub_le (fl (u + w)) (u + w) (a * b + t * d)
    linarith
  · have r := rnd (u - w) (3 * K ^ 2) (by linarith) ((abs_sub _ _).trans (by linarith))
    have e : u - w - (a * b - t * d) = (u - a * b) - (w - t * d) := by ring
    have := abs_sub (u - a * b) (w - t * d)
    rw [← e] at this
    have := abs_sub_le (fl (u - w)) (u - w) (a * b - t * d)
    linarith

/-- The operand with the tangent. -/
theorem tan_run {l : Trig} (hl : l.Ok) {ρ : ℕ → ℝ} {P T D : Ex} {a b B K y : ℝ} {i : ℕ} {A1 A2 : Ex} (hP : P = A1 * A2) (hT : T = sin (v i) / cos (v i))
    (hρ : |ρ i| ≤ 8) (hB : ρ i = B) (hK : Real.cos B * K = 1) (hK0 : 1 ≤ K) (hK1 : K ≤ 400) (ha : |a| ≤ 1) (hb : |b| ≤ 1) {d : ℝ} (hd : |d| ≤ 1)
    (h1 : ∀ z, Run l ρ A1 z → |z - a| ≤ 1 / 100000000000000) (h2 : ∀ z, Run l ρ A2 z → |z - b| ≤ 1 / 1000000000000000)
    (h3 : ∀ z, Run l ρ D z → |z - d| ≤ 1 / 1000000000000000) :
    (Run l ρ (P + T * D) y → |y - (a * b + Real.sin B * K * d)| ≤ 2 / 100000000000000 * K ^ 2) ∧
    (Run l ρ (P - T * D) y → |y - (a * b - Real.sin B * K * d)| ≤ 2 / 100000000000000 * K ^ 2) := by
  subst hP hT
  have hT : ∀ z, Run l ρ (sin (v i) / cos (v i)) z → |z - Real.sin B * K| ≤ 22 / 10000000000000000 * K ^ 2 := by
    intro z hz
    cases hz with
    | div u w =>
      cases u with
      | sin u =>
        cases w with
        | cos w =>
          cases u; cases w
          rw [hB] at hρ ⊢
          exact tan_near hK hK0 hK1 (hl.sin _ (hρ.trans (by norm_num))) (hl.cos _ (hρ.trans (by norm_num)))
  have ht : |Real.sin B * K| ≤ K := by
    rw [abs_mul, abs_of_nonneg (by linarith : 0 ≤ K)]
    nlinarith [abs_sin_le_one B]
  have tw : ∀ {a' b' t' d' u w : ℝ}, Run l ρ A1 a' → Run l ρ A2 b' → Run l ρ (sin (v i) / cos (v i)) t' → Run l ρ D d' →
      (u = a' * b' ∨ u = fl (a' * b')) → (w = t' * d' ∨ w = fl (t' * d')) → _ := fun r1 r2 r3 r4 hu hw =>
    two_prod hK0 hK1 ha hb ht hd (h1 _ r1) (h2 _ r2) (hT _ r3) (h3 _ r4) hu hw
  constructor
  · intro h
    cases h with
    | add p q =>
      cases p with
      | mul p1 p2 =>
        cases q with
        | mul q1 q2 => exact (tw p1 p2 q1 q2 (Or.inr rfl) (Or.inr rfl)).1
    | addMul p q1 q2 =>
      cases p with
      | mul p1 p2 => exact (tw p1 p2 q1 q2 (Or.inr rfl) (Or.inl rfl)).1
    | mulAdd q p1 p2 =>
      cases q with
      | mul q1 q2 => exact (tw p1 p2 q1 q2 (Or.inl rfl) (Or.inr rfl)).1
  · intro h
    cases h with
    | sub p q =>
      cases p with
      | mul p1 p2 =>
        cases q with
        | mul q1 q2 => exact (tw p1 p2 q1 q2 (Or.inr rfl) (Or.inr rfl)).2
    | subMul p q1 q2 =>
      cases p with
      | mul p1 p2 => exact (tw p1 p2 q1 q2 (Or.inr rfl) (Or.inl rfl)).2
    | mulSub q p1 p2 =>
      cases q with
      | mul q1 q2 => exact (tw p1 p2 q1 q2 (Or.inl rfl) (Or.inr rfl)).2

theorem lon_close {f : Sep64.Inv} (hf : Atan2Ok f) {x y a cb K : ℝ} (hc : 0 ≤ cb) (hc1 : cb ≤ 1) (hK : 1 ≤ K)
    (h : |x - cb * K * Real.cos a| + |y - cb * K * Real.sin a| ≤ 3 / 100000000000000 * K ^ 2) :
    ∃ k : ℤ, cb * |f.atan2 y x - a - k * (2 * π)| ≤ 97 / 1000000000000000 * K := by
  obtain ⟨k1, e1⟩ := arg_near (mul_nonneg hc (by linarith : 0 ≤ K)) h
  obtain ⟨-, k2, e2⟩ := hf y x
  have hπ4 := pi_lt_d2
  norm_num at hπ4 e2
  refine ⟨k1 + k2, ?_⟩
  have e3 : f.atan2 y x - a - ((k1 + k2 : ℤ) : ℝ) * (2 * π) = (f.atan2 y x - Verif.Go.atan2 y x - k2 * (2 * π)) + (Verif.Go.atan2 y x - a - k1 * (2 * π)) := by
    push_cast; ring
  rw [e3]
  have e4 := mul_le_mul_of_nonneg_left (abs_add_le (f.atan2 y x - Verif.Go.atan2 y x - k2 * (2 * π)) (Verif.Go.atan2 y x - a - k1 * (2 * π))) hc
  refine e4.trans ?_
  rw [mul_add]
  have e5 := mul_le_mul hc1 e2 (abs_nonneg _) (by norm_num)
  have e6 : cb * |Verif.Go.atan2 y x - a - k1 * (2 * π)| ≤ π * (3 / 100000000000000) * K := by
    have : 0 < K := by linarith
    rw [← mul_le_mul_iff_left₀ this]
    calc cb * |Verif.Go.atan2 y x - a - k1 * (2 * π)| * K = cb * K * |Verif.Go.atan2 y x - a - k1 * (2 * π)| := by ring
      _ ≤ _ := e1
      _ = _ := by ring
  nlinarith

/-- Reduction after the arc tangent. -/
theorem red_close {red : ℝ → ℝ} (hr : RedOk red) {p z a cb K : ℝ} (hc : 0 ≤ cb) (hc1 : cb ≤ 1) (hK : 1 ≤ K) (hz : |z| ≤ 32)
    (h : ∃ k : ℤ, cb * |z - a - k * (2 * π)| ≤ p * K) : ∃ k : ℤ, cb * |red z - a - k * (2 * π)| ≤ (p + 4 / 1000000000000000) * K := by
  obtain ⟨k1, e1⟩ := h
  obtain ⟨k2, e2⟩ := hr z hz
  norm_num at e2
  refine ⟨k1 + k2, ?_⟩
  have e3 : red z - a - ((k1 + k2 : ℤ) : ℝ) * (2 * π) = (red z - z - k2 * (2 * π)) + (z - a - k1 * (2 * π)) := by push_cast; ring
  rw [e3]
  refine (mul_le_mul_of_nonneg_left (abs_add_le _ _) hc).trans ?_
  rw [mul_add]
  have e5 := mul_le_mul hc1 e2 (abs_nonneg _) (by norm_num)
  nlinarith

theorem sin_r {l : Trig} (hl : l.Ok) {ρ : ℕ → ℝ} {i : ℕ} {B : ℝ} (h : ρ i = B) (hB : |B| ≤ 8) : ∀ z, Run l ρ (sin (v i)) z → |z - Real.sin B| ≤ 1 / 1000000000000000 := by
  intro z hz
  cases hz with
  | sin u => cases u; rw [h]; exact (hl.sin _ (hB.trans (by norm_num))).trans (by norm_num)

theorem cos_r {l : Trig} (hl : l.Ok) {ρ : ℕ → ℝ} {i : ℕ} {B : ℝ} (h : ρ i = B) (hB : |B| ≤ 8) : ∀ z, Run l ρ (cos (v i)) z → |z - Real.cos B| ≤ 1 / 1000000000000000 := by
  intro z hz
  cases hz with
  | cos u => cases u; rw [h]; exact (hl.cos _ (hB.trans (by norm_num))).trans (by norm_num)

theorem inv_c {b : ℝ} (h : 1 / 400 ≤ Real.cos b) : Real.cos b * (1 / Real.cos b) = 1 ∧ 1 ≤ 1 / Real.cos b ∧ 1 / Real.cos b ≤ 400 := by
  have h0 : 0 < Real.cos b := by linarith
  refine ⟨by field_simp, ?_, ?_⟩
  · rw [le_div_iff₀ h0]; linarith [Real.cos_le_one b]
  · rw [div_le_iff₀ h0]; linarith

end Coord64v

open Coord64v Coord64

/-- EqToEcl: let L, B be the true ecliptic coordinates (the axes of the ecliptic are the equinox and the point of right ascension 90° and declination ε).  The longitude
returned is L up to whole turns and to 10⁻¹³/cos δ radian along the parallel of latitude. -/
theorem C192_EqToEcl {l : Trig} (hl : l.Ok) {f : Sep64.Inv} (hf : Atan2Ok f) {α δ ε L B out : ℝ} (h1 : |α| ≤ 8) (h2 : |δ| ≤ 8) (h3 : |ε| ≤ 8)
    (hδ : 1 / 400 ≤ Real.cos δ) (hB : 0 ≤ Real.cos B) (hx : Real.cos B * Real.cos L = inner ℝ (dir α δ) (dir 0 0))
    (hy : Real.cos B * Real.sin L = inner ℝ (dir α δ) (dir (π / 2) ε)) (ho : EqToEclLon l f α δ ε out) :
    ∃ k : ℤ, Real.cos B * |out - L - k * (2 * π)| ≤ 1e-13 / Real.cos δ := by
  obtain ⟨y, x, ry, rx, rfl⟩ := ho
  obtain ⟨k1, k2, k3⟩ := inv_c hδ
  rw [Lemmas.inner_dir] at hx hy
  rw [Real.sin_zero, Real.cos_zero, mul_zero, sub_zero, zero_add, mul_one] at hx
  rw [Real.cos_sub_pi_div_two] at hy
  have ey := (tan_run (y := y) hl (P := sin (v 0) * cos (v 2)) (T := sin (v 1) / cos (v 1)) (D := sin (v 2)) (i := 1) (B := δ) (ρ := vars [α, δ, ε]) rfl rfl h2 rfl k1 k2 k3
    (abs_sin_le_one α) (abs_cos_le_one ε) (abs_sin_le_one ε) (fun z hz => (sin_r hl rfl h1 z hz).trans (by norm_num)) (cos_r hl rfl h3) (sin_r hl rfl h3)).1 ry
  have ex := cos_r (B := α) hl rfl h1 x rx
  set K := 1 / Real.cos δ with hK
  have K1 : 1 ≤ K ^ 2 := by nlinarith
  obtain ⟨k, hk⟩ := lon_close hf (x := x) (y := y) (a := L) hB (Real.cos_le_one B) k2 (by
    rw [show Real.cos B * K * Real.cos L = Real.cos α by linear_combination K * hx + Real.cos α * k1,
      show Real.cos B * K * Real.sin L = Real.sin α * Real.cos ε + Real.sin δ * K * Real.sin ε by linear_combination K * hy + Real.sin α * Real.cos ε * k1]
    linarith)
  refine ⟨k, hk.trans ?_⟩
  rw [div_eq_mul_one_div (_ : ℝ) (Real.cos _), ← hK]
  norm_num
  linarith

/-- EclToEq: the axes of the equator are the equinox and the point of longitude 90° and latitude −ε. -/
theorem C192_EclToEq {l : Trig} (hl : l.Ok) {f : Sep64.Inv} (hf : Atan2Ok f) {red : ℝ → ℝ} (hr : RedOk red) {lon β ε α δ out : ℝ} (h1 : |lon| ≤ 8) (h2 : |β| ≤ 8)
    (h3 : |ε| ≤ 8) (hβ : 1 / 400 ≤ Real.cos β) (hδ : 0 ≤ Real.cos δ) (hx : Real.cos δ * Real.cos α = inner ℝ (dir lon β) (dir 0 0))
    (hy : Real.cos δ * Real.sin α = inner ℝ (dir lon β) (dir (π / 2) (-ε))) (ho : EclToEqRA l f red lon β ε out) :
    ∃ k : ℤ, Real.cos δ * |out - α - k * (2 * π)| ≤ 1.1e-13 / Real.cos β := by
  obtain ⟨a, ⟨y, x, ry, rx, rfl⟩, rfl⟩ := ho
  obtain ⟨k1, k2, k3⟩ := inv_c hβ
  rw [Lemmas.inner_dir] at hx hy
  rw [Real.sin_zero, Real.cos_zero, mul_zero, sub_zero, zero_add, mul_one] at hx
  rw [Real.cos_sub_pi_div_two, Real.sin_neg, Real.cos_neg] at hy
  have ey := (tan_run (y := y) hl (P := sin (v 0) * cos (v 2)) (T := sin (v 1) / cos (v 1)) (D := sin (v 2)) (i := 1) (B := β) (ρ := vars [lon, β, ε]) rfl rfl h2 rfl k1 k2 k3
    (abs_sin_le_one lon) (abs_cos_le_one ε) (abs_sin_le_one ε) (fun z hz => (sin_r hl rfl h1 z hz).trans (by norm_num)) (cos_r hl rfl h3) (sin_r hl rfl h3)).2 ry
  have ex := cos_r (B := lon) hl rfl h1 x rx
  set K := 1 / Real.cos β with hK
  have K1 : 1 ≤ K ^ 2 := by nlinarith
  have hk := red_close hr hδ (Real.cos_le_one δ) k2 ((hf y x).1.trans (by norm_num)) (lon_close hf (x := x) (y := y) (a := α) hδ (Real.cos_le_one δ) k2 (by
    rw [show Real.cos δ * K * Real.cos α = Real.cos lon by linear_combination K * hx + Real.cos lon * k1,
      show Real.cos δ * K * Real.sin α = Real.sin lon * Real.cos ε - Real.sin β * K * Real.sin ε by linear_combination K * hy + Real.sin lon * Real.cos ε * k1]
    linarith))
  obtain ⟨k, hk⟩ := hk
  refine ⟨k, hk.trans ?_⟩
  rw [div_eq_mul_one_div (_ : ℝ) (Real.cos _), ← hK]
  norm_num
  linarith

/-- EqToHz: the azimuth is measured from the South point (hour angle 0, declination φ − 90°) to the West point (hour angle 90°, declination 0). -/
theorem C192_EqToHz {l : Trig} (hl : l.Ok) {f : Sep64.Inv} (hf : Atan2Ok f) {st ψ α δ φ A h out : ℝ} (h1 : |st| ≤ 8) (h2 : |ψ| ≤ 8) (h3 : |α| ≤ 8)
    (h4 : |δ| ≤ 8) (h5 : |φ| ≤ 8) (hδ : 1 / 400 ≤ Real.cos δ) (hh : 0 ≤ Real.cos h) (hx : Real.cos h * Real.cos A = inner ℝ (dir α δ) (dir (st - ψ) (φ - π / 2)))
    (hy : Real.cos h * Real.sin A = inner ℝ (dir α δ) (dir (st - ψ - π / 2) 0)) (ho : EqToHzAz l f st ψ α δ φ out) :
    ∃ k : ℤ, Real.cos h * |out - A - k * (2 * π)| ≤ 1e-13 / Real.cos δ := by
  obtain ⟨y, x, ry, rx, rfl⟩ := ho
  obtain ⟨k1, k2, k3⟩ := inv_c hδ
  rw [Lemmas.inner_dir] at hx hy
  rw [Real.sin_sub_pi_div_two, Real.cos_sub_pi_div_two, ← Real.cos_neg (α - (st - ψ)), neg_sub] at hx
  rw [Real.sin_zero, Real.cos_zero, mul_zero, zero_add, mul_one, show α - (st - ψ - π / 2) = π / 2 - (st - ψ - α) by ring, Real.cos_pi_div_two_sub] at hy
  have eH : ∀ z, Run l (vars [st, ψ, α, δ, φ]) (cos (v 0 - v 1 - v 2)) z → |z - Real.cos (st - ψ - α)| ≤ 1 / 100000000000000 := by
    intro z hz
    have e := (within_bound hl (env_vars (all5 h1 h2 h3 h4 h5)) hz (m := 2 ^ 65) (ε := 3402823669209384634633746) (show within (List.replicate 5 (8 * 2 ^ 64, 0)) _ _ _ = true by decide +kernel)).2
    have e2 : (cos (v 0 - v 1 - v 2)).val (vars [st, ψ, α, δ, φ]) = Real.cos (st - ψ - α) := rfl
    rw [e2] at e
    exact e.trans (by norm_num)
  have eS : |y - Real.sin (st - ψ - α)| ≤ 1 / 100000000000000 := by
    have e := (within_bound hl (env_vars (all5 h1 h2 h3 h4 h5)) ry (m := 2 ^ 65) (ε := 3402823669209384634633746) (show within (List.replicate 5 (8 * 2 ^ 64, 0)) _ _ _ = true by decide +kernel)).2
    have e2 : (sin (v 0 - v 1 - v 2)).val (vars [st, ψ, α, δ, φ]) = Real.sin (st - ψ - α) := rfl
    rw [e2] at e
    exact e.trans (by norm_num)
  have ex := (tan_run (y := x) hl (P := cos (v 0 - v 1 - v 2) * sin (v 4)) (T := sin (v 3) / cos (v 3)) (D := cos (v 4)) (i := 3) (B := δ) (ρ := vars [st, ψ, α, δ, φ]) rfl rfl h4 rfl
    k1 k2 k3 (abs_cos_le_one (st - ψ - α)) (abs_sin_le_one φ) (abs_cos_le_one φ) eH (sin_r hl rfl h5) (cos_r hl rfl h5)).2 rx
  set K := 1 / Real.cos δ with hK
  have K1 : 1 ≤ K ^ 2 := by nlinarith
  obtain ⟨k, hk⟩ := lon_close hf (x := x) (y := y) (a := A) hh (Real.cos_le_one h) k2 (by
    rw [show Real.cos h * K * Real.sin A = Real.sin (st - ψ - α) by linear_combination K * hy + Real.sin (st - ψ - α) * k1,
      show Real.cos h * K * Real.cos A = Real.cos (st - ψ - α) * Real.sin φ - Real.sin δ * K * Real.cos φ by
        linear_combination K * hx + Real.cos (st - ψ - α) * Real.sin φ * k1]
    linarith)
  refine ⟨k, hk.trans ?_⟩
  rw [div_eq_mul_one_div (_ : ℝ) (Real.cos _), ← hK]
  norm_num
  linarith

/-- HzToEq: the hour angle st − ψ − α is measured from the point of the equator on the meridian (azimuth 0, altitude 90° − φ) to the West point. -/
theorem C192_HzToEq {l : Trig} (hl : l.Ok) {f : Sep64.Inv} (hf : Atan2Ok f) {red : ℝ → ℝ} (hr : RedOk red) {A h φ ψ st α δ out : ℝ} (h1 : |A| ≤ 8) (h2 : |h| ≤ 8)
    (h3 : |φ| ≤ 8) (h4 : |ψ| ≤ 8) (h5 : |st| ≤ 8) (hh : 1 / 400 ≤ Real.cos h) (hδ : 0 ≤ Real.cos δ)
    (hx : Real.cos δ * Real.cos (st - ψ - α) = inner ℝ (dir A h) (dir 0 (π / 2 - φ)))
    (hy : Real.cos δ * Real.sin (st - ψ - α) = inner ℝ (dir A h) (dir (π / 2) 0)) (ho : HzToEqRA l f red A h φ ψ st out) :
    ∃ k : ℤ, Real.cos δ * |out - α - k * (2 * π)| ≤ 1.1e-13 / Real.cos h := by
  obtain ⟨H, ⟨y, x, ry, rx, rfl⟩, rfl⟩ := ho
  obtain ⟨k1, k2, k3⟩ := inv_c hh
  rw [Lemmas.inner_dir] at hx hy
  rw [Real.sin_pi_div_two_sub, Real.cos_pi_div_two_sub, sub_zero] at hx
  rw [Real.sin_zero, Real.cos_zero, mul_zero, zero_add, mul_one, Real.cos_sub_pi_div_two] at hy
  have ex := (tan_run (y := x) hl (P := cos (v 0) * sin (v 2)) (T := sin (v 1) / cos (v 1)) (D := cos (v 2)) (i := 1) (B := h) (ρ := vars [A, h, φ]) rfl rfl h2 rfl k1 k2 k3
    (abs_cos_le_one A) (abs_sin_le_one φ) (abs_cos_le_one φ) (fun z hz => (cos_r hl rfl h1 z hz).trans (by norm_num)) (sin_r hl rfl h3) (cos_r hl rfl h3)).1 rx
  have ey := sin_r (B := A) hl rfl h1 y ry
  set K := 1 / Real.cos h with hK
  have K1 : 1 ≤ K ^ 2 := by nlinarith
  obtain ⟨k, hk⟩ := lon_close hf (x := x) (y := y) (a := st - ψ - α) hδ (Real.cos_le_one δ) k2 (by
    rw [show Real.cos δ * K * Real.sin (st - ψ - α) = Real.sin A by linear_combination K * hy + Real.sin A * k1,
      show Real.cos δ * K * Real.cos (st - ψ - α) = Real.cos A * Real.sin φ + Real.sin h * K * Real.cos φ by linear_combination K * hx + Real.cos A * Real.sin φ * k1]
    linarith)
  have bH := (hf y x).1
  set H := f.atan2 y x
  have r1 := fl_err (st - ψ)
  have b1 : |st - ψ| ≤ 16 := (abs_sub _ _).trans (by linarith)
  have r1' : |fl (st - ψ) - (st - ψ)| ≤ 2 / 1000000000000000 := r1.trans (by norm_num; linarith)
  have b2 : |fl (st - ψ) - H| ≤ 21 := by
    have t1 := abs_sub (fl (st - ψ)) H
    have t2 := abs_sub_abs_le_abs_sub (fl (st - ψ)) (st - ψ)
    linarith
  have r2 : |fl (fl (st - ψ) - H) - (fl (st - ψ) - H)| ≤ 3 / 1000000000000000 := (fl_err _).trans (by norm_num; linarith)
  set z := fl (fl (st - ψ) - H)
  have bz : |z| ≤ 32 := by
    have t2 := abs_sub_abs_le_abs_sub z (fl (st - ψ) - H)
    linarith
  have hz : ∃ k : ℤ, Real.cos δ * |z - α - k * (2 * π)| ≤ 102 / 1000000000000000 * K := by
    refine ⟨-k, ?_⟩
    have e : z - α - ((-k : ℤ) : ℝ) * (2 * π) = ((z - (fl (st - ψ) - H)) + (fl (st - ψ) - (st - ψ))) - (H - (st - ψ - α) - k * (2 * π)) := by push_cast; ring
    rw [e]
    refine (mul_le_mul_of_nonneg_left (abs_sub _ _) hδ).trans ?_
    rw [mul_add]
    have t := abs_add_le (z - (fl (st - ψ) - H)) (fl (st - ψ) - (st - ψ))
    have t2 := mul_le_mul (Real.cos_le_one δ) (t.trans (add_le_add r2 r1')) (abs_nonneg _) (by norm_num)
    linarith
  obtain ⟨j, hj⟩ := red_close hr hδ (Real.cos_le_one δ) k2 bz hz
  refine ⟨j, hj.trans ?_⟩
  rw [div_eq_mul_one_div (_ : ℝ) (Real.cos _), ← hK]
  norm_num
  linarith

/-- A body on the equator: its longitude is that of the point of right ascension 1, and the hypotheses are met. -/
theorem C192_example {l : Trig} (hl : l.Ok) {f : Sep64.Inv} (hf : Atan2Ok f) : (∃ out, EqToEclLon l f 1 0 0 out) ∧
    ∀ out, EqToEclLon l f 1 0 0 out → ∃ k : ℤ, |out - 1 - k * (2 * π)| ≤ 1e-13 := by
  constructor
  · obtain ⟨y, hy⟩ := run_exists l (vars [1, 0, 0]) (sin (v 0) * cos (v 2) + (sin (v 1) / cos (v 1)) * sin (v 2))
    obtain ⟨x, hx⟩ := run_exists l (vars [1, 0, 0]) (cos (v 0))
    exact ⟨_, y, x, hy, hx, rfl⟩
  · intro out ho
    have := C192_EqToEcl (L := 1) (B := 0) hl hf (by norm_num) (by norm_num) (by norm_num) (by norm_num) (by norm_num)
      (by rw [Lemmas.inner_dir]; simp) (by rw [Lemmas.inner_dir, Real.cos_sub_pi_div_two]; simp) ho
    simpa using this

end Verif.Props
