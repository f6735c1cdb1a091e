import Verif.Model.Precess64
import Verif.Props.CoordLon64
import Verif.Lemmas.Rotation
/-
C193: rigorous precession in double precision.
-/
namespace Verif.Props

open Real Verif.Spec Verif.Model Verif.Go Verif.Go.F64 Verif.Go.F64.Ex

namespace Precess64v

open Precess64 Coord64v

/-- Two epochs from −6000 to 6000 and two coordinates of at most 8 radians. -/
def envP : List (ℕ × ℕ) := [(6000 * 2 ^ 64, 0), (6000 * 2 ^ 64, 0), (8 * 2 ^ 64, 0), (8 * 2 ^ 64, 0)]

theorem envP_fits {e0 e1 α δ : ℝ} (h1 : |e0| ≤ 6000) (h2 : |e1| ≤ 6000) (h3 : |α| ≤ 8) (h4 : |δ| ≤ 8) :
    ∀ i p, envP[i]? = some p → Fits (Sep64.args e0 e1 α δ i) (Sep64.args e0 e1 α δ i) p := by
  intro i p hp
  unfold envP at hp
  rcases i with _ | _ | _ | _ | i <;> simp at hp
  · subst hp; exact ⟨by norm_num; exact h1, by simp⟩
  · subst hp; exact ⟨by norm_num; exact h2, by simp⟩
  · subst hp; exact ⟨by norm_num; exact h3, by simp⟩
  · subst hp; exact ⟨by norm_num; exact h4, by simp⟩

theorem arccos_close2 {a σ δ : ℝ} (h0 : -1 ≤ a) (h1 : a ≤ 1) (s0 : π / 1100 ≤ σ) (s1 : σ ≤ π - π / 1100) (h : |a - Real.cos σ| ≤ δ) :
    |arccos a - σ| ≤ 1120 * δ := by
  have hπ := pi_pos
  have hπ3 := pi_gt_d2
  have hπ4 := pi_lt_d2
  have t0 := arccos_nonneg a
  have t1 := arccos_le_pi a
  have hc := cos_arccos h0 h1
  set τ := arccos a
  rw [← hc, Real.cos_sub_cos, abs_mul, abs_mul, abs_neg, abs_two] at h
  have m1 : Real.sin (π / 2200) ≤ Real.sin ((τ + σ) / 2) := Sep64v.sin_between (by linarith) (by linarith) (by linarith)
  have m2 := sin_lower (x := π / 2200) (by linarith) (by norm_num; linarith)
  have m3 : 0.001426 ≤ Real.sin ((τ + σ) / 2) := by
    norm_num at m2 ⊢
    linarith
  have m4 : 0 ≤ Real.sin ((τ + σ) / 2) := le_trans (by norm_num) m3
  rw [abs_of_nonneg m4] at h
  have hd : |(τ - σ) / 2| ≤ π / 2 := by
    rw [abs_le]
    constructor <;> linarith
  have m5 := mul_abs_le_abs_sin hd
  have m6 : 2 / π * |(τ - σ) / 2| = |τ - σ| / π := by
    rw [abs_div, abs_two]; field_simp
  rw [m6, div_le_iff₀ hπ] at m5
  have m7 : 0.002852 * |Real.sin ((τ - σ) / 2)| ≤ δ := by
    refine le_trans ?_ h
    apply mul_le_mul_of_nonneg_right _ (abs_nonneg _)
    norm_num at m3 ⊢
    linarith
  have m8 := abs_nonneg (Real.sin ((τ - σ) / 2))
  have hδ : 0 ≤ δ := (mul_nonneg (by norm_num) m8).trans m7
  generalize |Real.sin ((τ - σ) / 2)| = w at *
  have m9 : w * π ≤ w * 3.15 := mul_le_mul_of_nonneg_left hπ4.le m8
  norm_num at m7 m9 ⊢
  linarith

theorem cos_1100 : Real.cos (π / 1080) + 1e-8 ≤ Real.cos (π / 1100) := by
  have hπ := pi_pos
  have hπ3 := pi_gt_d2
  have hπ4 := pi_lt_d2
  norm_num at hπ3 hπ4
  have e := Real.cos_sub_cos (π / 1100) (π / 1080)
  rw [show (π / 1100 + π / 1080) / 2 = π * (109 / 118800) by ring, show (π / 1100 - π / 1080) / 2 = -(π / 118800) by ring, Real.sin_neg] at e
  have l1 := sin_lower (x := π / 118800) (by linarith) (by norm_num; linarith)
  have l2 := sin_lower (x := π * (109 / 118800)) (by linarith) (by norm_num; linarith)
  have l3 : 28 / 10000 ≤ Real.sin (π * (109 / 118800)) := by norm_num at l2 ⊢; linarith
  have l4 : 26 / 1000000 ≤ Real.sin (π / 118800) := by norm_num at l1 ⊢; linarith
  have l5 := mul_le_mul l3 l4 (by norm_num) (le_trans (by norm_num) l3)
  norm_num at l5 e ⊢
  linarith

theorem asin_lip {x y ε : ℝ} (x0 : 0 ≤ x) (x1 : x ≤ 4 / 1000) (y0 : 0 ≤ y) (y1 : y ≤ 4 / 1000) (h : |x - y| ≤ ε) :
    |arcsin x - arcsin y| ≤ 103 / 100 * ε := by
  have l := sin_lower (x := 1 / 100) (by norm_num) (by norm_num)
  have b : ∀ z : ℝ, 0 ≤ z → z ≤ 4 / 1000 → 0 ≤ arcsin z ∧ arcsin z ≤ 1 / 100 := by
    intro z z0 z1
    refine ⟨arcsin_nonneg.mpr z0, ?_⟩
    have hπ3 := pi_gt_d2
    norm_num at hπ3
    rw [arcsin_le_iff_le_sin ⟨by linarith, by linarith⟩ ⟨by linarith, by linarith⟩]
    norm_num at l ⊢
    linarith
  obtain ⟨a1, a2⟩ := b x x0 x1
  obtain ⟨b1, b2⟩ := b y y0 y1
  have e := Sep64v.sin_expand a1 a2 b1 b2
  rw [sin_arcsin (by linarith) (by linarith), sin_arcsin (by linarith) (by linarith)] at e
  have n := abs_nonneg (arcsin x - arcsin y)
  generalize |arcsin x - arcsin y| = w at *
  norm_num at e
  linarith

/-- The latitude from components near those of the direction of latitude d. -/
theorem lat_near {f : Sep64.Inv} (hf : f.Ok) {s a b c u d : ℝ} (hs : |s - Real.cos (π / 1080)| ≤ 1e-14) (d0 : -(π / 2) ≤ d) (d1 : d ≤ π / 2)
    (ha : |a - Real.cos d * Real.sin u| ≤ 12 / 1000000000000000) (hb : |b - Real.cos d * Real.cos u| ≤ 12 / 1000000000000000)
    (hc : |c - Real.sin d| ≤ 12 / 1000000000000000) : ∃ r, lat f s a b c = some r ∧ |r - d| ≤ 2e-11 := by
  have hπ := pi_pos
  have hπ3 := pi_gt_d2
  have hπ4 := pi_lt_d2
  norm_num at hπ3 hπ4
  obtain ⟨c1, c2⟩ := abs_le.mp hc
  obtain ⟨s1, s2⟩ := abs_le.mp hs
  have k := cos_1100
  obtain ⟨kt, -, -⟩ := Sep64v.cos_ten
  norm_num at s1 s2 k kt
  by_cases h : |c| < s
  · obtain ⟨x0, x1⟩ := abs_lt.mp h
    have hc1 : |c| ≤ 1 := by linarith
    refine ⟨f.asin c, by simp [lat, h, hc1], ?_⟩
    have e1 := hf.asin c hc1
    have es : Real.sin d = Real.cos (π / 2 - d) := (Real.cos_pi_div_two_sub d).symm
    rw [es] at hc c1 c2
    have g1 : π / 1100 ≤ π / 2 - d := by
      by_contra g
      push Not at g
      have := Real.cos_lt_cos_of_nonneg_of_le_pi (x := π / 2 - d) (y := π / 1100) (by linarith) (by linarith) g
      linarith
    have g2 : π / 2 - d ≤ π - π / 1100 := by
      by_contra g
      push Not at g
      have := Real.cos_lt_cos_of_nonneg_of_le_pi (x := π - π / 1100) (y := π / 2 - d) (by linarith) (by linarith) g
      rw [Real.cos_pi_sub] at this
      linarith
    have e2 := arccos_close2 (a := c) (by linarith) (by linarith) g1 g2 hc
    rw [arccos_eq_pi_div_two_sub_arcsin] at e2
    have e4 : |arcsin c - d| ≤ 1120 * (12 / 1000000000000000) := by
      rw [← abs_neg]; convert e2 using 2; ring
    refine (abs_sub_le _ (arcsin c) _).trans ((add_le_add e1 e4).trans ?_)
    norm_num
  · have hc1 := not_lt.mp h
    have cd0 : 0 ≤ Real.cos d := Real.cos_nonneg_of_neg_pi_div_two_le_of_le d0 d1
    -- the true hypotenuse
    have lip := Sep64v.hypot_lip (Real.cos d * Real.sin u) (Real.cos d * Real.cos u) a b
    have hyp0 : Angle.hypot (Real.cos d * Real.sin u) (Real.cos d * Real.cos u) = Real.cos d := by
      unfold Angle.hypot
      rw [show (Real.cos d * Real.sin u) ^ 2 + (Real.cos d * Real.cos u) ^ 2 = Real.cos d ^ 2 by
        linear_combination Real.cos d ^ 2 * Real.sin_sq_add_cos_sq u]
      exact sqrt_sq cd0
    rw [hyp0] at lip
    have lip' : |Angle.hypot a b - Real.cos d| ≤ 24 / 1000000000000000 := by linarith
    obtain ⟨l1, l2⟩ := abs_le.mp lip'
    have hh := hf.hypot a b
    have hcd : Real.cos d ≤ 3 / 1000 := by
      -- |sin d| ≥ cos 10′ − 3e-14
      have k2 := Real.one_sub_sq_div_two_le_cos (x := π / 1080)
      have sd : 1 - 44 / 10000000 ≤ |Real.sin d| := by
        have := abs_sub_abs_le_abs_sub c (Real.sin d)
        nlinarith
      have q := Real.sin_sq_add_cos_sq d
      rw [← sq_abs (Real.sin d)] at q
      nlinarith
    have hb2 : 1e-15 * Angle.hypot a b ≤ 1 / 100000000000000000 := by norm_num; linarith
    have hx : |f.hypot a b - Real.cos d| ≤ 25 / 1000000000000000 := by
      refine (abs_sub_le _ (Angle.hypot a b) _).trans ((add_le_add (hh.trans hb2) lip').trans ?_)
      norm_num
    set x := f.hypot a b
    obtain ⟨y1, y2⟩ := abs_le.mp hx
    have x0 : 0 ≤ x := by
      have q0 : 0 ≤ Angle.hypot a b := by unfold Angle.hypot; positivity
      obtain ⟨q1, q2⟩ := abs_le.mp hh
      norm_num at q1
      linarith
    have hx1 : |x| ≤ 1 := by rw [abs_le]; constructor <;> linarith
    have e1 := hf.acos x hx1
    -- arc cosine near a right angle
    have e2 : |arccos x - (π / 2 - arcsin (Real.cos d))| ≤ 26 / 1000000000000000 := by
      rw [arccos_eq_pi_div_two_sub_arcsin]
      have : π / 2 - arcsin x - (π / 2 - arcsin (Real.cos d)) = -(arcsin x - arcsin (Real.cos d)) := by ring
      rw [this, abs_neg]
      refine (asin_lip x0 (by linarith) cd0 (by linarith) hx).trans ?_
      norm_num
    have e3 : |f.acos x - (π / 2 - arcsin (Real.cos d))| ≤ 1e-11 := by
      refine (abs_sub_le _ (arccos x) _).trans ((add_le_add e1 e2).trans ?_)
      norm_num
    have k2 := Real.one_sub_sq_div_two_le_cos (x := π / 1080)
    have cs : 9 / 10 ≤ |c| := by nlinarith
    by_cases hneg : c < 0
    · refine ⟨-f.acos x, by simp [lat, h, hx1, hneg, x], ?_⟩
      rw [abs_of_neg hneg] at cs
      have dneg : d < 0 := by
        by_contra g
        push Not at g
        have := Real.sin_nonneg_of_nonneg_of_le_pi g (by linarith)
        linarith
      have : arcsin (Real.cos d) = π / 2 + d := by
        rw [← Real.cos_neg, ← Real.sin_pi_div_two_sub, arcsin_sin (by linarith) (by linarith)]; ring
      rw [this] at e3
      have e5 : -f.acos x - d = -(f.acos x - (π / 2 - (π / 2 + d))) := by ring
      rw [e5, abs_neg]
      refine e3.trans (by norm_num)
    · refine ⟨f.acos x, by simp [lat, h, hx1, hneg, x], ?_⟩
      rw [abs_of_nonneg (not_lt.mp hneg)] at cs
      have dpos : 0 < d := by
        by_contra g
        push Not at g
        have := Real.sin_nonpos_of_nonpos_of_neg_pi_le g (by linarith)
        linarith
      have : arcsin (Real.cos d) = π / 2 - d := by
        rw [← Real.sin_pi_div_two_sub, arcsin_sin (by linarith) (by linarith)]
      rw [this] at e3
      have e5 : f.acos x - d = f.acos x - (π / 2 - (π / 2 - d)) := by ring
      rw [e5]
      exact e3.trans (by norm_num)

theorem lon_near {f : Sep64.Inv} (hf : Atan2Ok f) {a b u d : ℝ} (hd : 0 ≤ Real.cos d)
    (ha : |a - Real.cos d * Real.sin u| ≤ 12 / 1000000000000000) (hb : |b - Real.cos d * Real.cos u| ≤ 12 / 1000000000000000) :
    ∃ k : ℤ, Real.cos d * |f.atan2 a b - u - k * (2 * π)| ≤ 77 / 1000000000000000 := by
  obtain ⟨k1, e1⟩ := arg_near hd (add_le_add hb ha)
  obtain ⟨-, k2, e2⟩ := hf a b
  have hπ4 := pi_lt_d2
  norm_num at hπ4 e2
  refine ⟨k1 + k2, ?_⟩
  have e3 : f.atan2 a b - u - ((k1 + k2 : ℤ) : ℝ) * (2 * π) = (f.atan2 a b - Verif.Go.atan2 a b - k2 * (2 * π)) + (Verif.Go.atan2 a b - u - k1 * (2 * π)) := by
    push_cast; ring
  rw [e3]
  refine (mul_le_mul_of_nonneg_left (abs_add_le _ _) hd).trans ?_
  rw [mul_add]
  have e5 := mul_le_mul (Real.cos_le_one d) e2 (abs_nonneg _) (by norm_num)
  linarith

/-- A sum or difference of the arc tangent and an angle, rounded. -/
theorem sum_near {A w u W cd : ℝ} (hc : 0 ≤ cd) (hc1 : cd ≤ 1) (hA : |A| ≤ 4) (hw : |w - W| ≤ 8 / 1000000000000000) (hw1 : |w| ≤ 9)
    (h : ∃ k : ℤ, cd * |A - u - k * (2 * π)| ≤ 77 / 1000000000000000) :
    (|fl (A + w)| ≤ 32 ∧ ∃ k : ℤ, cd * |fl (A + w) - (u + W) - k * (2 * π)| ≤ 87 / 1000000000000000) ∧
      ∃ k : ℤ, cd * |fl (w - A) - (W - u) - k * (2 * π)| ≤ 87 / 1000000000000000 := by
  obtain ⟨k, hk⟩ := h
  have g : ∀ x, |x| ≤ 13 → |fl x - x| ≤ 2 / 1000000000000000 := by
    intro x hx
    refine (fl_err x).trans ?_
    have : |x| / 2 ^ 53 ≤ 13 / 2 ^ 53 := by gcongr
    refine (add_le_add_left this _).trans ?_
    norm_num
  have b1 : |A + w| ≤ 13 := (abs_add_le _ _).trans (by linarith)
  have b2 : |w - A| ≤ 13 := (abs_sub _ _).trans (by linarith)
  have r : ∀ p q t : ℝ, |p| ≤ 2 / 1000000000000000 → |q| ≤ 8 / 1000000000000000 → cd * |t| ≤ 77 / 1000000000000000 → cd * |p + q + t| ≤ 87 / 1000000000000000 := by
    intro p q t hp hq ht
    have e1 : |p + q + t| ≤ |p| + |q| + |t| := (abs_add_le _ _).trans (add_le_add_left (abs_add_le _ _) _)
    have e2 := mul_le_mul_of_nonneg_left e1 hc
    have e3 := mul_le_mul hc1 (add_le_add hp hq) (by positivity) (by norm_num)
    rw [mul_add cd] at e2
    linarith
  refine ⟨⟨?_, k, ?_⟩, -k, ?_⟩
  · have := abs_sub_abs_le_abs_sub (fl (A + w)) (A + w)
    have := g _ b1
    linarith
  · have e : fl (A + w) - (u + W) - k * (2 * π) = (fl (A + w) - (A + w)) + (w - W) + (A - u - k * (2 * π)) := by ring
    rw [e]
    exact r _ _ _ (g _ b1) hw hk
  · have e : fl (w - A) - (W - u) - ((-k : ℤ) : ℝ) * (2 * π) = (fl (w - A) - (w - A)) + (w - W) + -(A - u - k * (2 * π)) := by push_cast; ring
    rw [e]
    refine r _ _ _ (g _ b2) hw ?_
    rwa [abs_neg]

end Precess64v

/-- ζ, z and θ of the precession from epoch e to epoch e' (Meeus 21.2), in radians; T and t are centuries of years. -/
noncomputable def precTrue (e e' : ℝ) : ℝ × ℝ × ℝ :=
  let T := (e - 2000) / 100
  let t := (e' - e) / 100
  let s := π / 180 / 3600
  (((2306.2181 + 1.39656 * T - 0.000139 * T ^ 2) * t + (0.30188 - 0.000344 * T) * t ^ 2 + 0.017998 * t ^ 3) * s,
    ((2306.2181 + 1.39656 * T - 0.000139 * T ^ 2) * t + (1.09468 + 0.000066 * T) * t ^ 2 + 0.018203 * t ^ 3) * s,
    ((2004.3109 - 0.85330 * T - 0.000217 * T ^ 2) * t - (0.42665 + 0.000217 * T) * t ^ 2 - 0.041833 * t ^ 3) * s)

/-- η, Π and p of the precession of the ecliptic (Meeus 21.5). -/
noncomputable def eclTrue (e e' : ℝ) : ℝ × ℝ × ℝ :=
  let T := (e - 2000) / 100
  let t := (e' - e) / 100
  let s := π / 180 / 3600
  (((47.0029 - 0.06603 * T + 0.000598 * T ^ 2) * t + (-0.03302 + 0.000598 * T) * t ^ 2 + 0.000060 * t ^ 3) * s,
    174.876384 * (π / 180) + (3289.4789 * T + 0.60622 * T ^ 2 - (869.8089 + 0.50491 * T) * t + 0.03536 * t ^ 2) * s,
    ((5029.0966 + 2.22226 * T - 0.000042 * T ^ 2) * t + (1.11113 - 0.000042 * T) * t ^ 2 - 0.000006 * t ^ 3) * s)

namespace Precess64v

open Precess64 Coord64v

theorem prec_val {e0 e1 α δ : ℝ} {y : Bool} (hy : y = true ↔ e0 ≠ 2000) :
    ((ζ y).val (Sep64.args e0 e1 α δ), (z y).val (Sep64.args e0 e1 α δ), (θ y).val (Sep64.args e0 e1 α δ)) = precTrue e0 e1 := by
  unfold precTrue
  cases y
  · have : e0 = 2000 := by simpa using hy
    subst this
    simp only [Prod.mk.injEq]
    refine ⟨?_, ?_, ?_⟩ <;>
    · simp [ζ, z, θ, horner, sec, t, Sep64.args, val_q, val_p, val_sub, val]
      ring
  · simp only [Prod.mk.injEq]
    refine ⟨?_, ?_, ?_⟩ <;>
    · simp [ζ, z, θ, horner, sec, t, T, Sep64.args, val_q, val_p, val_sub, val]
      ring

theorem ecl_val {e0 e1 α δ : ℝ} {y : Bool} (hy : y = true ↔ e0 ≠ 2000) :
    ((η y).val (Sep64.args e0 e1 α δ), (Precess64.Pi y).val (Sep64.args e0 e1 α δ), (pp y).val (Sep64.args e0 e1 α δ)) = eclTrue e0 e1 := by
  unfold eclTrue
  cases y
  · have : e0 = 2000 := by simpa using hy
    subst this
    simp only [Prod.mk.injEq]
    refine ⟨?_, ?_, ?_⟩ <;>
    · simp [η, Precess64.Pi, pp, horner, sec, t, Sep64.args, val_q, val_p, val_sub, val]
      ring
  · simp only [Prod.mk.injEq]
    refine ⟨?_, ?_, ?_⟩ <;>
    · simp [η, Precess64.Pi, pp, horner, sec, t, T, Sep64.args, val_q, val_p, val_sub, val]
      ring

theorem runP {l : Trig} (hl : l.Ok) {e0 e1 α δ x : ℝ} (h1 : |e0| ≤ 6000) (h2 : |e1| ≤ 6000) (h3 : |α| ≤ 8) (h4 : |δ| ≤ 8) {F : Bool → Ex} {y : Bool}
    {m ε : ℕ} (hF : within envP (F false) m ε = true ∧ within envP (F true) m ε = true) (hx : Run l (Sep64.args e0 e1 α δ) (F y) x) :
    |(F y).val (Sep64.args e0 e1 α δ)| ≤ m / 2 ^ 64 ∧ |x - (F y).val (Sep64.args e0 e1 α δ)| ≤ ε / 2 ^ 128 := by
  have : within envP (F y) m ε = true := by cases y; exacts [hF.1, hF.2]
  exact within_bound hl (envP_fits h1 h2 h3 h4) hx this

end Precess64v

open Precess64 Precess64v

/-- The precessed position: α', δ' is the direction α, δ turned by ζ about the pole, by −θ about the axis of the equator and by z about the new pole.  Then
Precess always returns numbers, the declination to 2·10⁻¹¹ radian and the right ascension to 10⁻¹³ radian along the parallel, whole turns apart. -/
theorem C193_Precess {l : Trig} (hl : l.Ok) {f : Sep64.Inv} (hf : f.Ok) (ha : Atan2Ok f) {red : ℝ → ℝ} (hr : RedOk red) {s e0 e1 α δ α' δ' ra : ℝ} {dec : Option ℝ}
    (hs : |s - Real.cos (π / 1080)| ≤ 1e-14) (h1 : |e0| ≤ 6000) (h2 : |e1| ≤ 6000) (h3 : |α| ≤ 8) (h4 : |δ| ≤ 8) (d0 : -(π / 2) ≤ δ') (d1 : δ' ≤ π / 2)
    (hd : dir α' δ' = rotZ (precTrue e0 e1).2.1 (rotY (-(precTrue e0 e1).2.2) (rotZ (precTrue e0 e1).1 (dir α δ))))
    (ho : Precess64.Precess l f red s e0 e1 α δ ra dec) :
    (∃ r, dec = some r ∧ |r - δ'| ≤ 2e-11) ∧ ∃ k : ℤ, Real.cos δ' * |ra - α' - k * (2 * π)| ≤ 1e-13 := by
  obtain ⟨y, hy, a, b, c, w, ra', rb, rc, rw', rfl, rfl⟩ := ho
  have hv := prec_val (e1 := e1) (α := α) (δ := δ) hy
  rw [← hv] at hd
  have xa := (runP hl h1 h2 h3 h4 (F := A) (m := 2 * 2 ^ 64) (ε := 4083388403051261561560495) (by decide +kernel) ra').2
  have xb := (runP hl h1 h2 h3 h4 (F := B) (m := 3 * 2 ^ 64) (ε := 4083388403051261561560495) (by decide +kernel) rb).2
  have xc := (runP hl h1 h2 h3 h4 (F := C) (m := 3 * 2 ^ 64) (ε := 4083388403051261561560495) (by decide +kernel) rc).2
  obtain ⟨mw, xw⟩ := runP hl h1 h2 h3 h4 (F := z) (m := 2 * 2 ^ 64) (ε := 680564733841876926926749) (by decide +kernel) rw'
  have va : (A y).val (Sep64.args e0 e1 α δ) = Real.cos δ * Real.sin (α + (ζ y).val (Sep64.args e0 e1 α δ)) := by
    simp [A, val, val_sub, Sep64.args]
  have vb : (B y).val (Sep64.args e0 e1 α δ) = Real.cos ((θ y).val (Sep64.args e0 e1 α δ)) * Real.cos δ * Real.cos (α + (ζ y).val (Sep64.args e0 e1 α δ)) -
      Real.sin ((θ y).val (Sep64.args e0 e1 α δ)) * Real.sin δ := by
    simp [B, val, val_sub, Sep64.args]
  have vc : (C y).val (Sep64.args e0 e1 α δ) = Real.sin ((θ y).val (Sep64.args e0 e1 α δ)) * Real.cos δ * Real.cos (α + (ζ y).val (Sep64.args e0 e1 α δ)) +
      Real.cos ((θ y).val (Sep64.args e0 e1 α δ)) * Real.sin δ := by
    simp [C, val, val_sub, Sep64.args]
  rw [va] at xa
  rw [vb] at xb
  rw [vc] at xc
  generalize (ζ y).val (Sep64.args e0 e1 α δ) = Z1 at *
  generalize (z y).val (Sep64.args e0 e1 α δ) = Z2 at *
  generalize (θ y).val (Sep64.args e0 e1 α δ) = Z3 at *
  rw [Lemmas.rotZ_dir] at hd
  have q0 := congrFun (congrArg WithLp.ofLp hd) 0
  have q1 := congrFun (congrArg WithLp.ofLp hd) 1
  have q2 := congrFun (congrArg WithLp.ofLp hd) 2
  simp [rotZ, rotY, dir] at q0 q1 q2
  have p := Real.sin_sq_add_cos_sq Z2
  have cd0 : 0 ≤ Real.cos δ' := Real.cos_nonneg_of_neg_pi_div_two_le_of_le d0 d1
  have ea : Real.cos δ' * Real.sin (α' - Z2) = Real.cos δ * Real.sin (α + Z1) := by
    rw [Real.sin_sub]
    linear_combination Real.cos Z2 * q1 - Real.sin Z2 * q0 + Real.cos δ * Real.sin (α + Z1) * p
  have eb : Real.cos δ' * Real.cos (α' - Z2) = Real.cos Z3 * Real.cos δ * Real.cos (α + Z1) - Real.sin Z3 * Real.sin δ := by
    rw [Real.cos_sub]
    linear_combination Real.sin Z2 * q1 + Real.cos Z2 * q0 + (Real.cos Z3 * Real.cos δ * Real.cos (α + Z1) - Real.sin Z3 * Real.sin δ) * p
  have ec : Real.sin δ' = Real.sin Z3 * Real.cos δ * Real.cos (α + Z1) + Real.cos Z3 * Real.sin δ := by
    linear_combination q2
  rw [← ea] at xa
  rw [← eb] at xb
  rw [← ec] at xc
  replace xa := xa.trans (show _ ≤ (12 / 1000000000000000 : ℝ) by norm_num)
  replace xb := xb.trans (show _ ≤ (12 / 1000000000000000 : ℝ) by norm_num)
  replace xc := xc.trans (show _ ≤ (12 / 1000000000000000 : ℝ) by norm_num)
  replace xw := xw.trans (show _ ≤ (8 / 1000000000000000 : ℝ) by norm_num)
  refine ⟨lat_near hf hs d0 d1 xa xb xc, ?_⟩
  have bw : |w| ≤ 9 := by
    have := abs_sub_abs_le_abs_sub w Z2
    norm_num at mw
    linarith
  obtain ⟨⟨n1, n2⟩, -⟩ := sum_near cd0 (Real.cos_le_one δ') (ha a b).1 xw bw (lon_near ha cd0 xa xb)
  obtain ⟨k, hk⟩ := Coord64v.red_close (K := 1) hr cd0 (Real.cos_le_one δ') le_rfl n1 (by simpa only [mul_one] using n2)
  refine ⟨k, ?_⟩
  rw [sub_add_cancel] at hk
  refine hk.trans (by norm_num)

/-- The same for the ecliptic: turned by −Π to the node of the two ecliptics, by −η about it, and by Π + p along the new ecliptic. -/
theorem C193_EclPrecess {l : Trig} (hl : l.Ok) {f : Sep64.Inv} (hf : f.Ok) (ha : Atan2Ok f) {s e0 e1 lon β lon' β' out : ℝ} {latitude : Option ℝ}
    (hs : |s - Real.cos (π / 1080)| ≤ 1e-14) (h1 : |e0| ≤ 6000) (h2 : |e1| ≤ 6000) (h3 : |lon| ≤ 8) (h4 : |β| ≤ 8) (d0 : -(π / 2) ≤ β') (d1 : β' ≤ π / 2)
    (hd : dir lon' β' = rotZ ((eclTrue e0 e1).2.1 + (eclTrue e0 e1).2.2) (rotX (-(eclTrue e0 e1).1) (rotZ (-(eclTrue e0 e1).2.1) (dir lon β))))
    (ho : Precess64.EclPrecess l f s e0 e1 lon β out latitude) :
    (∃ r, latitude = some r ∧ |r - β'| ≤ 2e-11) ∧ ∃ k : ℤ, Real.cos β' * |out - lon' - k * (2 * π)| ≤ 1e-13 := by
  obtain ⟨y, hy, a, b, c, w, ra', rb, rc, rw', rfl, rfl⟩ := ho
  have hv := ecl_val (e1 := e1) (α := lon) (δ := β) hy
  rw [← hv] at hd
  have xa := (runP hl h1 h2 h3 h4 (F := A') (m := 3 * 2 ^ 64) (ε := 4083388403051261561560495) (by decide +kernel) ra').2
  have xb := (runP hl h1 h2 h3 h4 (F := B') (m := 2 * 2 ^ 64) (ε := 4083388403051261561560495) (by decide +kernel) rb).2
  have xc := (runP hl h1 h2 h3 h4 (F := C') (m := 3 * 2 ^ 64) (ε := 4083388403051261561560495) (by decide +kernel) rc).2
  obtain ⟨mw, xw⟩ := runP hl h1 h2 h3 h4 (F := fun y => pp y + Precess64.Pi y) (m := 85 * 2 ^ 64 / 10) (ε := 2722258935367507707706996) (by decide +kernel) rw'
  have va : (A' y).val (Sep64.args e0 e1 lon β) = Real.cos ((η y).val (Sep64.args e0 e1 lon β)) * Real.cos β * Real.sin ((Precess64.Pi y).val (Sep64.args e0 e1 lon β) - lon) -
      Real.sin ((η y).val (Sep64.args e0 e1 lon β)) * Real.sin β := by
    simp [A', val, val_sub, Sep64.args]
  have vb : (B' y).val (Sep64.args e0 e1 lon β) = Real.cos β * Real.cos ((Precess64.Pi y).val (Sep64.args e0 e1 lon β) - lon) := by
    simp [B', val, val_sub, Sep64.args]
  have vc : (C' y).val (Sep64.args e0 e1 lon β) = Real.cos ((η y).val (Sep64.args e0 e1 lon β)) * Real.sin β +
      Real.sin ((η y).val (Sep64.args e0 e1 lon β)) * Real.cos β * Real.sin ((Precess64.Pi y).val (Sep64.args e0 e1 lon β) - lon) := by
    simp [C', val, val_sub, Sep64.args]
  have vw : (pp y + Precess64.Pi y).val (Sep64.args e0 e1 lon β) = (pp y).val (Sep64.args e0 e1 lon β) + (Precess64.Pi y).val (Sep64.args e0 e1 lon β) := by
    simp [val]
  rw [va] at xa
  rw [vb] at xb
  rw [vc] at xc
  rw [vw] at xw mw
  generalize (η y).val (Sep64.args e0 e1 lon β) = Z1 at *
  generalize (Precess64.Pi y).val (Sep64.args e0 e1 lon β) = Z2 at *
  generalize (pp y).val (Sep64.args e0 e1 lon β) = Z3 at *
  rw [Lemmas.rotZ_dir] at hd
  have q0 := congrFun (congrArg WithLp.ofLp hd) 0
  have q1 := congrFun (congrArg WithLp.ofLp hd) 1
  have q2 := congrFun (congrArg WithLp.ofLp hd) 2
  simp only [rotZ, rotX, dir, Real.cos_neg, Real.sin_neg] at q0 q1 q2
  simp at q0 q1 q2
  have g1 : Real.sin (lon + -Z2) = -Real.sin (Z2 - lon) := by rw [← Real.sin_neg]; congr 1; ring
  have g2 : Real.cos (lon + -Z2) = Real.cos (Z2 - lon) := by rw [← Real.cos_neg]; congr 1; ring
  rw [g1, g2] at q0 q1
  rw [g1] at q2
  have p := Real.sin_sq_add_cos_sq (Z2 + Z3)
  have cd0 : 0 ≤ Real.cos β' := Real.cos_nonneg_of_neg_pi_div_two_le_of_le d0 d1
  have ea : Real.cos β' * Real.sin (Z2 + Z3 - lon') = Real.cos Z1 * Real.cos β * Real.sin (Z2 - lon) - Real.sin Z1 * Real.sin β := by
    rw [Real.sin_sub]
    linear_combination -Real.cos (Z2 + Z3) * q1 + Real.sin (Z2 + Z3) * q0 + (Real.cos Z1 * Real.cos β * Real.sin (Z2 - lon) - Real.sin Z1 * Real.sin β) * p
  have eb : Real.cos β' * Real.cos (Z2 + Z3 - lon') = Real.cos β * Real.cos (Z2 - lon) := by
    rw [Real.cos_sub]
    linear_combination Real.sin (Z2 + Z3) * q1 + Real.cos (Z2 + Z3) * q0 + Real.cos β * Real.cos (Z2 - lon) * p
  have ec : Real.sin β' = Real.cos Z1 * Real.sin β + Real.sin Z1 * Real.cos β * Real.sin (Z2 - lon) := by
    linear_combination q2
  rw [← ea] at xa
  rw [← eb] at xb
  rw [← ec] at xc
  replace xa := xa.trans (show _ ≤ (12 / 1000000000000000 : ℝ) by norm_num)
  replace xb := xb.trans (show _ ≤ (12 / 1000000000000000 : ℝ) by norm_num)
  replace xc := xc.trans (show _ ≤ (12 / 1000000000000000 : ℝ) by norm_num)
  replace xw := xw.trans (show _ ≤ (8 / 1000000000000000 : ℝ) by norm_num)
  refine ⟨lat_near hf hs d0 d1 xa xb xc, ?_⟩
  have bw : |w| ≤ 9 := by
    have := abs_sub_abs_le_abs_sub w (Z3 + Z2)
    norm_num at mw
    linarith
  obtain ⟨-, k, hk⟩ := sum_near cd0 (Real.cos_le_one β') (ha a b).1 xw bw (lon_near ha cd0 xa xb)
  refine ⟨k, ?_⟩
  rw [show Z3 + Z2 - (Z2 + Z3 - lon') = lon' by ring] at hk
  refine hk.trans (by norm_num)

/-- The hypotheses can be met: between equal epochs the code returns a direction within the bounds of the one given, here right ascension 1 and declination 1/2. -/
theorem C193_example {l : Trig} (hl : l.Ok) {f : Sep64.Inv} (hf : f.Ok) (ha : Atan2Ok f) {red : ℝ → ℝ} (hr : RedOk red) :
    (∃ ra dec, Precess64.Precess l f red (Real.cos (π / 1080)) 1950 1950 1 (1 / 2) ra dec) ∧
      ∀ ra dec, Precess64.Precess l f red (Real.cos (π / 1080)) 1950 1950 1 (1 / 2) ra dec → ∃ r, dec = some r ∧ |r - 1 / 2| ≤ 2e-11 := by
  constructor
  · obtain ⟨a, h1⟩ := run_exists l (Sep64.args 1950 1950 1 (1 / 2)) (A true)
    obtain ⟨b, h2⟩ := run_exists l (Sep64.args 1950 1950 1 (1 / 2)) (B true)
    obtain ⟨c, h3⟩ := run_exists l (Sep64.args 1950 1950 1 (1 / 2)) (C true)
    obtain ⟨w, h4⟩ := run_exists l (Sep64.args 1950 1950 1 (1 / 2)) (z true)
    exact ⟨_, _, true, by norm_num, a, b, c, w, h1, h2, h3, h4, rfl, rfl⟩
  · intro ra dec ho
    have hπ3 := pi_gt_d2
    norm_num at hπ3
    have e : precTrue 1950 1950 = (0, 0, 0) := by unfold precTrue; simp
    have y0 : ∀ p : V3, rotY 0 p = p := fun p => by
      ext i; fin_cases i <;> simp [rotY]
    refine (C193_Precess (α' := 1) (δ' := 1 / 2) hl hf ha hr (by simp; norm_num) (by norm_num) (by norm_num) (by norm_num) (by norm_num) (by linarith) (by linarith) ?_ ho).1
    rw [e]
    simp only [neg_zero]
    rw [y0, Lemmas.rotZ_dir, Lemmas.rotZ_dir]
    simp

end Verif.Props
