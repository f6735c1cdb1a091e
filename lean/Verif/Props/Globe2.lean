import Verif.Model.Rest
import Verif.Props.Globe
import Verif.Lemmas.PolyQ
/-
C160: the short formulas of package globe against the ellipsoid.
-/
namespace Verif.Props

open Real Verif.Spec Verif.Go Verif.Model Verif.Model.Globe Verif.Lemmas Verif.Lemmas.PolyQ

/-- Polynomials of cos 2φ: `Rho`, and the denominator and numerator of the square of the distance from the centre. -/
def rhoQ : List ℚ := [9983271 / 10 ^ 7 + 35 / 10 ^ 7, 16764 / 10 ^ 7, -7 / 10 ^ 6]
def flQ : ℚ := (1 - 1000 / 298257) ^ 2
def denQ : List ℚ := [(1 + flQ) / 2, (1 - flQ) / 2]
def numQ : List ℚ := [(1 + flQ ^ 2) / 2, (1 - flQ ^ 2) / 2]

theorem rhoQ_l1 : l1 (padd (pmul (pmul rhoQ rhoQ) denQ) (psc (-1) numQ)) ≤ 246 / 10 ^ 9 := by decide +kernel

/-- The parallax constants at sea level. -/
theorem constants76 (φ : ℝ) (hφ : 0 < cos φ) :
    let R := sqrt (cos φ ^ 2 + (1 - Earth76.Fl) ^ 2 * sin φ ^ 2)
    0 < R ∧ (Earth76.ParallaxConstants φ 0).1 = (1 - Earth76.Fl) ^ 2 * sin φ / R ∧ (Earth76.ParallaxConstants φ 0).2 = cos φ / R := by
  have hf : Earth76.Fl < 1 := by unfold Earth76; norm_num
  obtain ⟨h1, h2, h3⟩ := parallaxU Earth76.Fl φ hf hφ
  refine ⟨h1, ?_, ?_⟩
  · dsimp only [Ellipsoid.ParallaxConstants]
    rw [h3]; ring
  · dsimp only [Ellipsoid.ParallaxConstants]
    rw [h2]; ring

/-- **C160.**  `Rho` is the distance from the centre of the point of the ellipsoid `Earth76` at sea level, within 1.3e-7 of the equatorial radius, at every latitude. -/
theorem C160_rho (φ : ℝ) (hφ : 0 < cos φ) :
    |Rho φ - sqrt ((Earth76.ParallaxConstants φ 0).1 ^ 2 + (Earth76.ParallaxConstants φ 0).2 ^ 2)| ≤ 1.3e-7 := by
  obtain ⟨hR, e1, e2⟩ := constants76 φ hφ
  rw [e1, e2]
  obtain ⟨R, hRd⟩ : ∃ R, R = sqrt (cos φ ^ 2 + (1 - Earth76.Fl) ^ 2 * sin φ ^ 2) := ⟨_, rfl⟩
  rw [← hRd] at hR ⊢
  have hR2 : R ^ 2 = cos φ ^ 2 + (1 - Earth76.Fl) ^ 2 * sin φ ^ 2 := by rw [hRd, sq_sqrt (by positivity)]
  obtain ⟨x, hx⟩ : ∃ x, x = cos (2 * φ) := ⟨_, rfl⟩
  have hx1 : |x| ≤ 1 := by rw [hx]; exact abs_cos_le_one _
  have c2 : cos φ ^ 2 = (1 + x) / 2 := by rw [hx, cos_two_mul]; ring
  have s2 : sin φ ^ 2 = (1 - x) / 2 := by linarith [sin_sq_add_cos_sq φ]
  have hr : Rho φ = ev rhoQ x := by
    unfold Rho rhoQ
    rw [show φ * 4 = 2 * (2 * φ) by ring, cos_two_mul, mul_comm φ 2, ← hx]
    simp only [ev]; push_cast; ring
  have hq : (1 - Earth76.Fl) ^ 2 = (flQ : ℝ) := by unfold Earth76 flQ; push_cast; norm_num
  have hD : R ^ 2 = ev denQ x := by
    rw [hR2, hq, c2, s2]; unfold denQ; simp only [ev]; push_cast; ring
  have hN : ((1 - Earth76.Fl) ^ 2 * sin φ) ^ 2 + cos φ ^ 2 = ev numQ x := by
    rw [mul_pow, hq, c2, s2]; unfold numQ; simp only [ev]; push_cast; ring
  have key := abs_ev_le (padd (pmul (pmul rhoQ rhoQ) denQ) (psc (-1) numQ)) hx1
  rw [ev_padd, ev_psc, ev_pmul, ev_pmul, ← hr, ← hD, ← hN] at key
  have l := rhoQ_l1
  have l' : (l1 (padd (pmul (pmul rhoQ rhoQ) denQ) (psc (-1) numQ)) : ℝ) ≤ ((246 / 10 ^ 9 : ℚ) : ℝ) := by exact_mod_cast l
  obtain ⟨ρ, hρ⟩ : ∃ ρ, ρ = sqrt (((1 - Earth76.Fl) ^ 2 * sin φ / R) ^ 2 + (cos φ / R) ^ 2) := ⟨_, rfl⟩
  have hρ0 : 0 ≤ ρ := by rw [hρ]; exact sqrt_nonneg _
  have hρ2 : ρ ^ 2 * R ^ 2 = ((1 - Earth76.Fl) ^ 2 * sin φ) ^ 2 + cos φ ^ 2 := by
    rw [hρ, sq_sqrt (by positivity)]; field_simp
  rw [← hρ]
  rw [← hρ2] at key
  have hRho : 0.996 ≤ Rho φ := by
    unfold Rho
    linarith [neg_one_le_cos (φ * 2), cos_le_one (φ * 4)]
  have hRl : 0.993 ≤ R ^ 2 := by
    rw [hD]; unfold denQ flQ
    simp only [ev]; push_cast
    obtain ⟨x1, x2⟩ := abs_le.1 hx1
    norm_num; linarith
  have e3 : Rho φ * Rho φ * R ^ 2 + ((-1 : ℚ) : ℝ) * (ρ ^ 2 * R ^ 2) = (Rho φ - ρ) * ((Rho φ + ρ) * R ^ 2) := by push_cast; ring
  rw [e3, abs_mul] at key
  have hρl : 0.992 ≤ ρ := by
    have : 0.992 ^ 2 ≤ ρ ^ 2 := by
      have hRu : R ^ 2 ≤ 1 := by
        rw [hD]; unfold denQ flQ
        simp only [ev]; push_cast
        obtain ⟨x1, x2⟩ := abs_le.1 hx1
        norm_num; linarith
      have hNl : 0.986 ≤ ρ ^ 2 * R ^ 2 := by
        rw [hρ2, hN]; unfold numQ flQ
        simp only [ev]; push_cast
        obtain ⟨x1, x2⟩ := abs_le.1 hx1
        norm_num; linarith
      nlinarith [sq_nonneg ρ]
    exact le_of_sq_le_sq this hρ0
  have hp : 1.97 ≤ (Rho φ + ρ) * R ^ 2 := by nlinarith
  rw [abs_of_pos (by linarith : 0 < (Rho φ + ρ) * R ^ 2)] at key
  have : |Rho φ - ρ| * 1.97 ≤ 246 / 10 ^ 9 := by
    push_cast at l'
    have := mul_le_mul_of_nonneg_left hp (abs_nonneg (Rho φ - ρ))
    linarith
  norm_num at *
  linarith

/-- Latitude 45°. -/
example : 0 < cos (π / 4) := by rw [cos_pi_div_four]; positivity

/-- The arc tangent of a small number. -/
theorem arctan_small {t : ℝ} (h : |t| ≤ 1) : |arctan t - t| ≤ |t| ^ 3 / 2 := by
  have pos : ∀ t : ℝ, 0 ≤ t → t ≤ 1 → |arctan t - t| ≤ t ^ 3 / 2 := by
    intro t h0 h1
    have d0 : 0 ≤ arctan t := arctan_nonneg.2 h0
    have hd : arctan t ≤ t := by
      by_contra hc
      push Not at hc
      have := lt_tan (by linarith) (arctan_lt_pi_div_two t)
      rw [tan_arctan] at this
      linarith [lt_trans hc this]
    have hc : 0 < cos (arctan t) := cos_arctan_pos t
    have hs : sin (arctan t) = t * cos (arctan t) := by
      have := tan_arctan t
      rw [tan_eq_sin_div_cos, div_eq_iff hc.ne'] at this
      exact this
    have h2 := sin_le d0
    have h3 := one_sub_sq_div_two_le_cos (x := arctan t)
    have h4 : arctan t ^ 2 ≤ t ^ 2 := by nlinarith
    rw [abs_le]
    constructor
    · nlinarith
    · have : 0 ≤ t ^ 3 := by positivity
      linarith
  rcases le_total 0 t with h0 | h0
  · rw [abs_of_nonneg h0] at h ⊢; exact pos t h0 h
  · have := pos (-t) (by linarith) (by rw [abs_of_nonpos h0] at h; exact h)
    rw [arctan_neg, show -arctan t - -t = -(arctan t - t) by ring, abs_neg] at this
    rw [abs_of_nonpos h0]
    exact this

/-- The coefficients of the series for the difference of latitudes. -/
theorem latitude_num (m S X t d : ℝ) (m1 : 0.0033584338 ≤ m) (m2 : m ≤ 0.0033584339) (aS : |S| ≤ 1) (aX : |X| ≤ 1) (h1 : S ^ 2 + X ^ 2 = 1)
    (hden : 0.996 ≤ 1 + m * X) (ht : t = m * S / (1 + m * X)) (hk : |d - t| ≤ 1.92e-8) :
    |(692.73 * S - 2.32 * (S * X)) * (π / 180 / 3600) - d| ≤ 0.015 * (π / 180 / 3600) := by
  have aSX : |S * X| ≤ 1 / 2 := by
    rw [abs_le]; constructor <;> nlinarith [sq_nonneg (S + X), sq_nonneg (S - X)]
  have k3 : |t - (m * S - m ^ 2 * (S * X))| ≤ 1.91e-8 := by
    have e : t - (m * S - m ^ 2 * (S * X)) = m ^ 3 * (S * X ^ 2) / (1 + m * X) := by
      rw [ht]; field_simp; ring
    rw [e, abs_div, abs_of_pos (by linarith : 0 < 1 + m * X), div_le_iff₀ (by linarith), abs_mul, abs_of_pos (by positivity), abs_mul, abs_pow]
    have w1 : |S| * |X| ^ 2 ≤ 1 / 2 := by
      rw [abs_mul] at aSX
      nlinarith [abs_nonneg S, abs_nonneg X, mul_nonneg (abs_nonneg S) (abs_nonneg X)]
    have w2 : m ^ 3 ≤ 0.0033584339 ^ 3 := pow_le_pow_left₀ (by linarith) m2 3
    have w3 : m ^ 3 * (|S| * |X| ^ 2) ≤ m ^ 3 * (1 / 2) := mul_le_mul_of_nonneg_left w1 (by positivity)
    norm_num at *
    linarith
  have p1 := pi_gt_d20
  have p2 := pi_lt_d20
  obtain ⟨a, ha⟩ : ∃ a, a = π / 180 / 3600 := ⟨_, rfl⟩
  have b1 : 4.848136811e-6 ≤ a := by rw [ha]; norm_num at *; linarith
  have b2 : a ≤ 4.848136812e-6 := by rw [ha]; norm_num at *; linarith
  rw [← ha]
  have u1 : |692.73 * a - m| ≤ 1.7e-8 := by rw [abs_le]; constructor <;> norm_num at * <;> linarith
  have m3 : 0.0033584338 ^ 2 ≤ m ^ 2 := pow_le_pow_left₀ (by norm_num) m1 2
  have m4 : m ^ 2 ≤ 0.0033584339 ^ 2 := pow_le_pow_left₀ (by linarith) m2 2
  have u2 : |2.32 * a - m ^ 2| ≤ 3.2e-8 := by rw [abs_le]; constructor <;> norm_num at * <;> linarith
  have f : (692.73 * S - 2.32 * (S * X)) * a - d =
      (692.73 * a - m) * S - (2.32 * a - m ^ 2) * (S * X) - (t - (m * S - m ^ 2 * (S * X))) - (d - t) := by ring
  rw [f]
  have v1 : |(692.73 * a - m) * S| ≤ 1.7e-8 := by rw [abs_mul]; exact (mul_le_of_le_one_right (abs_nonneg _) aS).trans u1
  have v2 : |(2.32 * a - m ^ 2) * (S * X)| ≤ 1.6e-8 := by
    rw [abs_mul]; refine (mul_le_mul u2 aSX (abs_nonneg _) (by norm_num)).trans (by norm_num)
  clear f u1 u2 m3 m4 p1 p2
  obtain ⟨v1, v1'⟩ := abs_le.1 v1
  obtain ⟨v2, v2'⟩ := abs_le.1 v2
  obtain ⟨k3, k3'⟩ := abs_le.1 k3
  obtain ⟨k1, k1'⟩ := abs_le.1 hk
  rw [abs_le]
  constructor <;> norm_num at * <;> linarith

/-- **C160.**  `GeocentricLatitudeDifference` is the geographic latitude less the latitude of the direction from the centre of `Earth76`, within 0.015″. -/
theorem C160_latitude (φ : ℝ) (h1 : -(π / 2) < φ) (h2 : φ < π / 2) :
    |GeocentricLatitudeDifference φ - (φ - arctan ((Earth76.ParallaxConstants φ 0).1 / (Earth76.ParallaxConstants φ 0).2))| ≤ 0.015 * (π / 180 / 3600) := by
  have hc : 0 < cos φ := cos_pos_of_mem_Ioo ⟨h1, h2⟩
  obtain ⟨hR, e1, e2⟩ := constants76 φ hc
  rw [e1, e2, div_div_div_cancel_right₀ hR.ne', mul_div_assoc, ← tan_eq_sin_div_cos]
  obtain ⟨q, hq⟩ : ∃ q, q = (1 - Earth76.Fl) ^ 2 := ⟨_, rfl⟩
  rw [← hq]
  obtain ⟨m, hm⟩ : ∃ m, m = (1 - q) / (1 + q) := ⟨_, rfl⟩
  have hq' : q = (1 - 1000 / 298257) ^ 2 := by rw [hq]; unfold Earth76; norm_num
  have m1 : 0.0033584338 ≤ m := by rw [hm, hq']; norm_num
  have m2 : m ≤ 0.0033584339 := by rw [hm, hq']; norm_num
  have hqm : q * (1 + m) = 1 - m := by rw [hm, hq']; norm_num
  obtain ⟨S, hS⟩ : ∃ S, S = sin (2 * φ) := ⟨_, rfl⟩
  obtain ⟨X, hX⟩ : ∃ X, X = cos (2 * φ) := ⟨_, rfl⟩
  have aS : |S| ≤ 1 := by rw [hS]; exact abs_sin_le_one _
  have aX : |X| ≤ 1 := by rw [hX]; exact abs_cos_le_one _
  obtain ⟨x1, x2⟩ := abs_le.1 aX
  have hden : 0.996 ≤ 1 + m * X := by nlinarith
  obtain ⟨t, ht⟩ : ∃ t, t = m * S / (1 + m * X) := ⟨_, rfl⟩
  have aS2 : |m * S| ≤ m := by rw [abs_mul, abs_of_pos (by linarith)]; exact mul_le_of_le_one_right (by linarith) aS
  have at1 : |t| ≤ 0.003372 := by
    rw [ht, abs_div, abs_of_pos (by linarith : 0 < 1 + m * X), div_le_iff₀ (by linarith)]
    nlinarith
  -- the difference of latitudes is the arc tangent of t
  have hd : arctan (q * tan φ) = φ - arctan t := by
    obtain ⟨d, hdd⟩ : ∃ d, d = arctan t := ⟨_, rfl⟩
    have hdc : 0 < cos d := by rw [hdd]; exact cos_arctan_pos t
    have hds : sin d = t * cos d := by
      have := tan_arctan t
      rw [← hdd, tan_eq_sin_div_cos, div_eq_iff hdc.ne'] at this
      exact this
    have tden : t * (1 + m * X) = m * S := by rw [ht]; field_simp
    have hS' : S = 2 * sin φ * cos φ := by rw [hS, sin_two_mul]
    have hX' : X = cos φ ^ 2 - sin φ ^ 2 := by rw [hX, cos_two_mul']
    have n1 : sin (φ - d) * (1 + m * X) = sin φ * (1 - m) * cos d := by
      rw [sin_sub, hds]
      have := sin_sq_add_cos_sq φ
      rw [hX']
      rw [hX', hS'] at tden
      linear_combination (-cos φ * cos d) * tden - m * sin φ * cos d * this
    have n2 : cos (φ - d) * (1 + m * X) = cos φ * (1 + m) * cos d := by
      rw [cos_sub, hds]
      have := sin_sq_add_cos_sq φ
      rw [hX']
      rw [hX', hS'] at tden
      linear_combination (sin φ * cos d) * tden + m * cos φ * cos d * this
    have hcd : 0 < cos (φ - d) := by
      have : 0 < cos (φ - d) * (1 + m * X) := by rw [n2]; positivity
      exact pos_of_mul_pos_left this (by linarith)
    have htan : tan (φ - d) = q * tan φ := by
      rw [tan_eq_sin_div_cos, tan_eq_sin_div_cos, div_eq_iff hcd.ne']
      have h0 : (1 + m * X) ≠ 0 := by linarith
      apply mul_right_cancel₀ h0
      rw [n1, show q * (sin φ / cos φ) * cos (φ - d) * (1 + m * X) = q * (sin φ / cos φ) * (cos (φ - d) * (1 + m * X)) by ring, n2]
      field_simp
      linear_combination (-sin φ) * hqm
    have a1 := neg_pi_div_two_lt_arctan t
    have a2 := arctan_lt_pi_div_two t
    rw [← hdd] at a1 a2
    rw [← hdd, ← htan]
    refine arctan_tan ?_ ?_
    · by_contra hc'
      push Not at hc'
      have := cos_nonpos_of_pi_div_two_le_of_le (x := -(φ - d)) (by linarith) (by linarith)
      rw [cos_neg] at this
      linarith
    · by_contra hc'
      push Not at hc'
      have := cos_nonpos_of_pi_div_two_le_of_le (x := φ - d) (by linarith) (by linarith)
      linarith
  rw [hd, sub_sub_cancel]
  have k1 := arctan_small (at1.trans (by norm_num))
  have k2 : |t| ^ 3 / 2 ≤ 1.92e-8 := by
    have : |t| ^ 3 ≤ 0.003372 ^ 3 := pow_le_pow_left₀ (abs_nonneg _) at1 3
    norm_num at *; linarith
  have eg : GeocentricLatitudeDifference φ = (692.73 * S - 2.32 * (S * X)) * (π / 180 / 3600) := by
    unfold GeocentricLatitudeDifference
    rw [show φ * 4 = 2 * (2 * φ) by ring, sin_two_mul, mul_comm φ 2, ← hS, ← hX]; ring
  rw [eg]
  exact latitude_num m S X t _ m1 m2 aS aX (by rw [hS, hX]; exact sin_sq_add_cos_sq _) hden ht (k1.trans k2)

theorem corr_num (r A B : ℝ) (r0 : 0 < r) (r1 : r ≤ 1) (A0 : 0 ≤ A) (A1 : A ≤ 1) (B0 : 0 ≤ B) (B1 : B ≤ 1) :
    (3 * r - 1) / 2 * A - (3 * r + 1) / 2 * B ≤ 1 ∧ -2 ≤ (3 * r - 1) / 2 * A - (3 * r + 1) / 2 * B := by
  have h1 := mul_nonneg (by linarith : (0 : ℝ) ≤ 3 * r + 1) B0
  have h2 := mul_nonneg r0.le A0
  have h3 := mul_le_mul r1 B1 B0 zero_le_one
  have h4 := mul_le_mul r1 A1 A0 zero_le_one
  have h5 := mul_nonneg r0.le (sub_nonneg.2 A1)
  constructor <;> nlinarith

/-- The spherical distance on a globe of 6371 km against the ellipsoid. -/
theorem linear_num (θ u : ℝ) (h0 : 0 < θ) (u1 : u ≤ 1) (u2 : -2 ≤ u) (x : ℝ) (hx : x = 6378.14 * θ * (1 + 1000 / 298257 * u)) :
    |6371 * θ - x| ≤ 0.006 * x := by
  have e1 := mul_le_mul_of_nonneg_left u1 h0.le
  have e2 := mul_le_mul_of_nonneg_left u2 h0.le
  have hx' : x = 6378.14 * θ + 6378.14 * (1000 / 298257) * (θ * u) := by rw [hx]; ring
  rw [hx', abs_le]
  generalize θ * u = w at *
  constructor <;> norm_num at * <;> linarith

/-- **C160.**  `ApproxLinearDistance` of the angle between two places is within 0.6 % of the distance on `Earth76`. -/
theorem C160_linear (p q : Coord) (h0 : 0 < sep p.Lon p.Lat q.Lon q.Lat) (h1 : sep p.Lon p.Lat q.Lon q.Lat < π) :
    ∃ x, Earth76.Distance p q = EF.fin x ∧
      |ApproxLinearDistance (sep p.Lon p.Lat q.Lon q.Lat) - x| ≤ 0.006 * x := by
  obtain ⟨θ, hθ⟩ : ∃ θ, θ = sep p.Lon p.Lat q.Lon q.Lat := ⟨_, rfl⟩
  rw [← hθ] at h0 h1 ⊢
  have hb : -1 ≤ sin p.Lat * sin q.Lat + cos p.Lat * cos q.Lat * cos (p.Lon - q.Lon) ∧
      sin p.Lat * sin q.Lat + cos p.Lat * cos q.Lat * cos (p.Lon - q.Lon) ≤ 1 := by
    have := abs_real_inner_le_norm (dir p.Lon p.Lat) (dir q.Lon q.Lat)
    rwa [norm_dir, norm_dir, inner_dir, mul_one, abs_le] at this
  have hcos : cos θ = sin p.Lat * sin q.Lat + cos p.Lat * cos q.Lat * cos (p.Lon - q.Lon) := by
    rw [hθ, sep_eq, cos_arccos hb.1 hb.2]
  have hs2 : sin (θ / 2) ^ 2 = (1 - cos θ) / 2 := by
    have a1 := cos_two_mul (θ / 2)
    rw [mul_div_cancel₀ _ two_ne_zero] at a1
    linarith [sin_sq_add_cos_sq (θ / 2)]
  have hc2 : cos (θ / 2) ^ 2 = (1 + cos θ) / 2 := by linarith [sin_sq_add_cos_sq (θ / 2)]
  have hsp : 0 < sin (θ / 2) := sin_pos_of_pos_of_lt_pi (by linarith) (by linarith)
  have hcp : 0 < cos (θ / 2) := cos_pos_of_mem_Ioo ⟨by linarith, by linarith⟩
  -- half sums and differences
  have hf : p.Lat = (p.Lat + q.Lat) / 2 + (p.Lat - q.Lat) / 2 := by ring
  have hg : q.Lat = (p.Lat + q.Lat) / 2 - (p.Lat - q.Lat) / 2 := by ring
  have hl : p.Lon - q.Lon = 2 * ((p.Lon - q.Lon) / 2) := by ring
  unfold Ellipsoid.Distance ApproxLinearDistance
  dsimp only
  generalize (p.Lat + q.Lat) / 2 = f at *
  generalize (p.Lat - q.Lat) / 2 = g at *
  generalize (p.Lon - q.Lon) / 2 = l at *
  rw [hl, hf, hg, cos_two_mul, sin_add, cos_add, sin_sub, cos_sub] at hcos
  have ef := sin_sq_add_cos_sq f
  have eg := sin_sq_add_cos_sq g
  have el := sin_sq_add_cos_sq l
  have hcos' : cos θ = 1 - 2 * cos f ^ 2 + 2 * cos l ^ 2 * (cos f ^ 2 - sin g ^ 2) := by
    rw [hcos]
    linear_combination (cos g ^ 2 - (2 * cos l ^ 2 - 1) * sin g ^ 2) * ef + ((1 - cos f ^ 2) + (2 * cos l ^ 2 - 1) * cos f ^ 2) * eg
  have hS : sin g * sin g * (cos l * cos l) + cos f * cos f * (sin l * sin l) = sin (θ / 2) ^ 2 := by
    rw [hs2, hcos']
    linear_combination cos f ^ 2 * el
  have hC : cos g * cos g * (cos l * cos l) + sin f * sin f * (sin l * sin l) = cos (θ / 2) ^ 2 := by
    linear_combination cos l ^ 2 * eg + sin l ^ 2 * ef + el - hS - sin_sq_add_cos_sq (θ / 2)
  have hsq : sqrt (sin (θ / 2) ^ 2 / cos (θ / 2) ^ 2) = tan (θ / 2) := by
    rw [← div_pow, sqrt_sq (by positivity), tan_eq_sin_div_cos]
  have hat : arctan (tan (θ / 2)) = θ / 2 := arctan_tan (by linarith) (by linarith)
  have hθ2 : θ / 2 ≠ 0 := by linarith
  have hd1 : (2 : ℝ) * cos (θ / 2) ^ 2 ≠ 0 := by positivity
  have hd2 : (2 : ℝ) * sin (θ / 2) ^ 2 ≠ 0 := by positivity
  rw [hS, hC, EF.fin_div_ne (by positivity), EF.sqrt_fin (by positivity), EF.sqrt_fin (by positivity), EF.atan_fin, hsq, hat, EF.fin_div_ne hθ2]
  simp only [EF.fin_mul, EF.fin_sub, EF.fin_add]
  rw [EF.fin_div_ne hd1, EF.fin_div_ne hd2]
  simp only [EF.fin_mul, EF.fin_sub, EF.fin_add]
  refine ⟨_, rfl, ?_⟩
  have hr0 : 0 < sin θ := sin_pos_of_pos_of_lt_pi h0 h1
  have hr1 : sin θ < θ := sin_lt h0
  have hss : sqrt (sin (θ / 2) ^ 2 * cos (θ / 2) ^ 2) = sin θ / 2 := by
    rw [← mul_pow, sqrt_sq (by positivity)]
    have := sin_two_mul (θ / 2)
    rw [mul_div_cancel₀ _ two_ne_zero] at this
    linarith
  rw [hss]
  obtain ⟨r, hr⟩ : ∃ r, r = sin θ / 2 / (θ / 2) := ⟨_, rfl⟩
  have r0 : 0 < r := by rw [hr]; positivity
  have r1 : r ≤ 1 := by rw [hr, div_le_one (by linarith)]; linarith
  obtain ⟨A, hA⟩ : ∃ A, A = sin f * sin f * (cos g * cos g) / cos (θ / 2) ^ 2 := ⟨_, rfl⟩
  obtain ⟨B, hB⟩ : ∃ B, B = cos f * cos f * (sin g * sin g) / sin (θ / 2) ^ 2 := ⟨_, rfl⟩
  have sf := sin_sq_le_one f
  have cf := cos_sq_le_one f
  have sg := sin_sq_le_one g
  have cg := cos_sq_le_one g
  have A0 : 0 ≤ A := by rw [hA]; exact div_nonneg (mul_nonneg (mul_self_nonneg _) (mul_self_nonneg _)) (by positivity)
  have B0 : 0 ≤ B := by rw [hB]; exact div_nonneg (mul_nonneg (mul_self_nonneg _) (mul_self_nonneg _)) (by positivity)
  have A1 : A ≤ 1 := by
    rw [hA, div_le_one (by positivity), ← hC]
    have w1 := mul_nonneg (mul_nonneg (sq_nonneg (cos g)) (sq_nonneg (cos l))) (sub_nonneg.2 sf)
    have w2 := mul_nonneg (mul_nonneg (sq_nonneg (sin f)) (sq_nonneg (sin l))) (sub_nonneg.2 cg)
    have w3 : sin f * sin f * (cos g * cos g) = sin f * sin f * (cos g * cos g) * (sin l ^ 2 + cos l ^ 2) := by rw [el, mul_one]
    rw [w3]; linarith
  have B1 : B ≤ 1 := by
    rw [hB, div_le_one (by positivity), ← hS]
    have w1 := mul_nonneg (mul_nonneg (sq_nonneg (sin g)) (sq_nonneg (cos l))) (sub_nonneg.2 cf)
    have w2 := mul_nonneg (mul_nonneg (sq_nonneg (cos f)) (sq_nonneg (sin l))) (sub_nonneg.2 sg)
    have w3 : cos f * cos f * (sin g * sin g) = cos f * cos f * (sin g * sin g) * (sin l ^ 2 + cos l ^ 2) := by rw [el, mul_one]
    rw [w3]; linarith
  obtain ⟨u, hu⟩ : ∃ u, u = (3 * r - 1) / 2 * A - (3 * r + 1) / 2 * B := ⟨_, rfl⟩
  obtain ⟨u1, u2⟩ := corr_num r A B r0 r1 A0 A1 B0 B1
  rw [← hu] at u1 u2
  apply linear_num θ u h0 u1 u2
  rw [hu, hA, hB, hr]
  unfold Earth76
  field_simp
  ring

/-- The places 60° apart on the equator. -/
example : sep 0 0 1 0 = 1 ∧ (1 : ℝ) < π := by
  refine ⟨?_, by linarith [pi_gt_three]⟩
  rw [sep_eq]; simp
  rw [arccos_cos (by norm_num) (by linarith [pi_gt_three])]

/-- The power 3/2 of a number just below 1. -/
theorem pow15_bounds {y : ℝ} (h0 : 0 ≤ y) (h1 : y ≤ 0.0068) :
    1 + 1.5 * y ≤ 1 / (1 - y) ^ (1.5 : ℝ) ∧ 1 / (1 - y) ^ (1.5 : ℝ) ≤ 1 + 1.5 * y + 2 * y ^ 2 := by
  obtain ⟨w, hw⟩ : ∃ w, w = sqrt (1 - y) := ⟨_, rfl⟩
  have hw2 : w ^ 2 = 1 - y := by rw [hw, sq_sqrt (by linarith)]
  have w1 : 0.99 ≤ w := by rw [hw]; exact le_sqrt_of_sq_le (by norm_num at *; linarith)
  have w2 : w ≤ 1 := by rw [hw]; exact sqrt_le_one.2 (by linarith)
  have e : (1 - y) ^ (1.5 : ℝ) = w ^ 3 := by
    rw [hw, sqrt_eq_rpow, ← rpow_natCast, ← rpow_mul (by linarith)]; norm_num
  have hy : y = 1 - w ^ 2 := by linarith
  rw [e, hy, le_div_iff₀ (by positivity), div_le_iff₀ (by positivity)]
  -- with v = 1 - w, of order y / 2
  obtain ⟨v, hv⟩ : ∃ v, v = 1 - w := ⟨_, rfl⟩
  have v0 : 0 ≤ v := by linarith
  have v1 : v ≤ 0.01 := by norm_num at *; linarith
  have hwv : w = 1 - v := by linarith
  rw [hwv]
  have q0 := mul_nonneg v0 v0
  have q1 := mul_nonneg q0 v0
  have q2 := mul_nonneg q1 v0
  have q3 := mul_nonneg q2 v0
  have q4 := mul_nonneg q3 v0
  have r1 := mul_le_mul_of_nonneg_left v1 q0
  have r2 := mul_le_mul_of_nonneg_left v1 q1
  have r3 := mul_le_mul_of_nonneg_left v1 q2
  have r4 := mul_le_mul_of_nonneg_left v1 q3
  have r5 := mul_le_mul_of_nonneg_left v1 q4
  constructor <;> ring_nf <;> norm_num at * <;> nlinarith

/-- **C160.**  `OneDegreeOfLatitude` of the radius of curvature is the distance between the places half a degree south and north, within 10 m. -/
theorem C160_degree (φ L : ℝ) :
    ∃ x, Earth76.Distance ⟨φ - deg / 2, L⟩ ⟨φ + deg / 2, L⟩ = EF.fin x ∧ |OneDegreeOfLatitude (Earth76.RadiusOfCurvature φ) - x| ≤ 0.01 := by
  have p1 := pi_gt_d6
  have p2 := pi_lt_d6
  have hdeg : deg = π / 180 := rfl
  refine ⟨_, C50_meridian Earth76 _ _ rfl (by dsimp only; rw [hdeg]; linarith) (by dsimp only; rw [hdeg]; linarith), ?_⟩
  dsimp only
  have hint : ∫ θ in (φ - deg / 2)..(φ + deg / 2), Earth76.Er * (1 - Earth76.Fl / 2 - 3 * Earth76.Fl / 2 * cos (2 * θ)) =
      Earth76.Er * ((1 - Earth76.Fl / 2) * deg - 3 * Earth76.Fl / 2 * (cos (2 * φ) * sin deg)) := by
    have hd : ∀ φ : ℝ, HasDerivAt (fun φ => Earth76.Er * ((1 - Earth76.Fl / 2) * φ - 3 * Earth76.Fl / 4 * sin (2 * φ)))
        (Earth76.Er * (1 - Earth76.Fl / 2 - 3 * Earth76.Fl / 2 * cos (2 * φ))) φ := by
      intro φ
      have h2 : HasDerivAt (fun φ : ℝ => sin (2 * φ)) (cos (2 * φ) * (2 * 1)) φ := ((hasDerivAt_id φ).const_mul 2).sin
      have := (((hasDerivAt_id φ).const_mul (1 - Earth76.Fl / 2)).sub (h2.const_mul (3 * Earth76.Fl / 4))).const_mul Earth76.Er
      exact this.congr_deriv (by ring)
    rw [intervalIntegral.integral_eq_sub_of_hasDerivAt (fun φ _ => hd φ) (by apply Continuous.intervalIntegrable; fun_prop)]
    rw [show 2 * (φ + deg / 2) = 2 * φ + deg by ring, show 2 * (φ - deg / 2) = 2 * φ - deg by ring, sin_add, sin_sub]
    ring
  rw [hint]
  obtain ⟨y, hy⟩ : ∃ y, y = (2 - Earth76.Fl) * Earth76.Fl * sin φ * sin φ := ⟨_, rfl⟩
  obtain ⟨X, hX⟩ : ∃ X, X = cos (2 * φ) := ⟨_, rfl⟩
  have aX : |X| ≤ 1 := by rw [hX]; exact abs_cos_le_one _
  obtain ⟨x1, x2⟩ := abs_le.1 aX
  have hyX : y = (2 - 1000 / 298257) * (1000 / 298257) * ((1 - X) / 2) := by
    rw [hy, hX, cos_two_mul, show (1 - (2 * cos φ ^ 2 - 1)) / 2 = sin φ * sin φ by linarith [sin_sq_add_cos_sq φ]]
    unfold Earth76; norm_num; ring
  have y0 : 0 ≤ y := by rw [hyX]; norm_num; linarith
  have y1 : y ≤ 0.0068 := by rw [hyX]; norm_num; linarith
  obtain ⟨b1, b2⟩ := pow15_bounds y0 y1
  unfold OneDegreeOfLatitude Ellipsoid.RadiusOfCurvature
  dsimp only
  rw [← hy, ← hX, mul_div_assoc, div_eq_mul_one_div (_ * _) (_ ^ _)]
  obtain ⟨P, hP⟩ : ∃ P, P = 1 / (1 - y) ^ (1.5 : ℝ) := ⟨_, rfl⟩
  rw [← hP] at b1 b2 ⊢
  have hs1 : sin deg ≤ deg := sin_le (by rw [hdeg]; linarith)
  have hs2 := sin_gt_sub_cube (x := deg) (by rw [hdeg]; linarith)
  rw [← hdeg]
  have d1 : 0.017453 ≤ deg := by rw [hdeg]; norm_num at *; linarith
  have d2 : deg ≤ 0.017454 := by rw [hdeg]; norm_num at *; linarith
  obtain ⟨s, hs⟩ : ∃ s, s = deg - sin deg := ⟨_, rfl⟩
  have hsd : sin deg = deg - s := by linarith
  have s0 : 0 ≤ s := by linarith
  have s1 : s ≤ 2e-6 := by
    have : deg ^ 3 ≤ 0.017454 ^ 3 := pow_le_pow_left₀ (by linarith) d2 3
    norm_num at *; linarith
  rw [hsd]
  have hyy : y ^ 2 ≤ 0.0068 * y := by nlinarith
  have eA : Earth76.A = 6378.14 := rfl
  have eE : Earth76.Er = 6378.14 := rfl
  have eF : Earth76.Fl = 1000 / 298257 := by unfold Earth76; norm_num
  rw [eA, eE, eF]
  obtain ⟨K, hK⟩ : ∃ K, K = (1 - (2 - 1000 / 298257) * (1000 / 298257)) * P - (1 - 1000 / 298257 / 2 - 3 * (1000 / 298257) / 2 * X) := ⟨_, rfl⟩
  have K1 : |K| ≤ 8e-5 := by
    rw [hK, abs_le]
    clear * - b1 b2 hyy hyX x1 x2 y0 y1
    constructor <;> norm_num at * <;> linarith
  have e : 6378.14 * (1 - (2 - 1000 / 298257) * (1000 / 298257)) * P * deg -
      6378.14 * ((1 - 1000 / 298257 / 2) * deg - 3 * (1000 / 298257) / 2 * (X * (deg - s))) = 6378.14 * (deg * K - 3 * (1000 / 298257) / 2 * (X * s)) := by
    rw [hK]; ring
  rw [e]
  have t1 : |deg * K| ≤ 0.017454 * 8e-5 := by
    rw [abs_mul, abs_of_pos (by linarith)]; exact mul_le_mul d2 K1 (abs_nonneg _) (by norm_num)
  have t2 : |X * s| ≤ 1 * 2e-6 := by
    rw [abs_mul, abs_of_nonneg s0]; exact mul_le_mul aX s1 s0 (by norm_num)
  clear * - t1 t2
  rw [abs_le] at *
  generalize deg * K = u at *
  generalize X * s = v at *
  constructor <;> norm_num at * <;> linarith
end Verif.Props
