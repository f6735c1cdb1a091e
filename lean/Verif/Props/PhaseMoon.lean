import Verif.Props.PhaseCert
/-
C170: the phases of the Moon of package moonphase against the positions of packages moonposition and solar.
-/
namespace Verif.Props

open Real Verif.Spec Verif.Go Verif.Model Verif.Lemmas Verif.Lemmas.PolyQ Verif.Lemmas.Laurent

/-! The arguments at the date of the phase -/

theorem lin5 (c0 c1 c2 c3 c4 T h : ℝ) (hT : |T| ≤ 11) (hh : |h| ≤ 1) :
    |(c0 + (T + h) * (c1 + (T + h) * (c2 + (T + h) * (c3 + (T + h) * c4)))) - (c0 + T * (c1 + T * (c2 + T * (c3 + T * c4)))) - c1 * h| ≤
      |h| * (23 * |c2| + 397 * |c3| + 6095 * |c4|) := by
  rw [show (c0 + (T + h) * (c1 + (T + h) * (c2 + (T + h) * (c3 + (T + h) * c4)))) - (c0 + T * (c1 + T * (c2 + T * (c3 + T * c4)))) - c1 * h =
    h * ((2 * T + h) * c2 + (3 * T ^ 2 + 3 * T * h + h ^ 2) * c3 + (4 * T ^ 3 + 6 * T ^ 2 * h + 4 * T * h ^ 2 + h ^ 3) * c4) by ring, abs_mul]
  have h0 := abs_nonneg T
  have h1 := abs_nonneg h
  have a2 : |2 * T + h| ≤ 23 := by
    refine (abs_add_le _ _).trans ?_
    rw [abs_mul, abs_two]; linarith
  have b1 : |T| ^ 2 ≤ 11 ^ 2 := by gcongr
  have b2 : |T| ^ 3 ≤ 11 ^ 3 := by gcongr
  have b3 : |h| ^ 2 ≤ 1 ^ 2 := by gcongr
  have b4 : |h| ^ 3 ≤ 1 ^ 3 := by gcongr
  have b5 : |T| * |h| ≤ 11 * 1 := by gcongr
  have b6 : |T| ^ 2 * |h| ≤ 11 ^ 2 * 1 := by gcongr
  have b7 : |T| * |h| ^ 2 ≤ 11 * 1 ^ 2 := by gcongr
  have a3 : |3 * T ^ 2 + 3 * T * h + h ^ 2| ≤ 397 := by
    refine (abs_add_three _ _ _).trans ?_
    simp only [abs_mul, abs_pow, Nat.abs_ofNat]
    nlinarith
  have a4 : |4 * T ^ 3 + 6 * T ^ 2 * h + 4 * T * h ^ 2 + h ^ 3| ≤ 6095 := by
    refine (abs_add_le _ _).trans ((add_le_add (abs_add_three _ _ _) le_rfl).trans ?_)
    simp only [abs_mul, abs_pow, Nat.abs_ofNat]
    nlinarith
  refine mul_le_mul_of_nonneg_left ?_ h1
  refine (abs_add_three _ _ _).trans ?_
  simp only [abs_mul]
  gcongr

theorem lin_q (q : List ℚ) (c1 : ℚ) (a b c d : ℚ) (hq : q = [a, c1, b, c, d]) (hb : 23 * |b| + 397 * |c| + 6095 * |d| ≤ 3 / 10) {T h : ℝ} (hT : |T| ≤ 11) (hh : |h| ≤ 3e-5) :
    |ev q (T + h) - ev q T - c1 * h| ≤ 1e-5 := by
  have k := lin5 a c1 b c d T h hT (hh.trans (by norm_num))
  have hb' : (23 * |(b : ℝ)| + 397 * |(c : ℝ)| + 6095 * |(d : ℝ)|) ≤ 3 / 10 := by
    have := (Rat.cast_le (K := ℝ)).2 hb
    push_cast at this; exact this
  have e : ∀ t : ℝ, ev q t = a + t * (c1 + t * (b + t * (c + t * d))) := by
    intro t; rw [hq]; simp only [PolyQ.ev]; ring
  rw [e, e]
  refine k.trans ((mul_le_mul hh hb' (by positivity) (by norm_num)).trans (by norm_num))


theorem lin_D {T h : ℝ} (hT : |T| ≤ 11) (hh : |h| ≤ 3e-5) : |PolyQ.ev qD (T + h) - PolyQ.ev qD T - 445267.1114034 * h| ≤ 1e-5 := by
  have := lin_q qD 445267.1114034 297.8501921 (-0.0018819) (1 / 545868) (-1 / 113065000) rfl (by decide +kernel) hT hh
  push_cast at this; exact this
theorem lin_M {T h : ℝ} (hT : |T| ≤ 11) (hh : |h| ≤ 3e-5) : |PolyQ.ev qM (T + h) - PolyQ.ev qM T - 35999.0502909 * h| ≤ 1e-5 := by
  have := lin_q (qM ++ [0]) 35999.0502909 357.5291092 (-0.0001535) (1 / 24490000) 0 rfl (by decide +kernel) hT hh
  simp only [qM, List.cons_append, List.nil_append, PolyQ.ev] at this ⊢
  push_cast at this ⊢; simpa using this
theorem lin_P {T h : ℝ} (hT : |T| ≤ 11) (hh : |h| ≤ 3e-5) : |PolyQ.ev qM' (T + h) - PolyQ.ev qM' T - 477198.8675055 * h| ≤ 1e-5 := by
  have := lin_q qM' 477198.8675055 134.9633964 0.0087414 (1 / 69699) (-1 / 14712000) rfl (by decide +kernel) hT hh
  push_cast at this; exact this
theorem lin_F {T h : ℝ} (hT : |T| ≤ 11) (hh : |h| ≤ 3e-5) : |PolyQ.ev qF (T + h) - PolyQ.ev qF T - 483202.0175233 * h| ≤ 1e-5 := by
  have := lin_q qF 483202.0175233 93.272095 (-0.0036539) (-1 / 3526000) (1 / 863310000) rfl (by decide +kernel) hT hh
  push_cast at this; exact this

/-- Mean longitude of the Moon less that of the Sun, with the constant of aberration. -/
def qX : List ℚ := [218.3164477 - 280.46646 + 0.0057, 445267.11140421, -0.0018818, 1 / 538841, -1 / 65194000]
theorem lin_X {T h : ℝ} (hT : |T| ≤ 11) (hh : |h| ≤ 3e-5) : |PolyQ.ev qX (T + h) - PolyQ.ev qX T - 445267.11140421 * h| ≤ 1e-5 := by
  have := lin_q qX 445267.11140421 (218.3164477 - 280.46646 + 0.0057) (-0.0018818) (1 / 538841) (-1 / 65194000) rfl (by decide +kernel) hT hh
  push_cast at this; exact this
theorem pX_l1 : PolyQ.l1 (pcomp (resid qX mPhase pD 0) [0, 1001 / 100]) ≤ 184 / 1000000 := by decide +kernel
theorem pD_l2 : PolyQ.l1 (pcomp (resid qD mPhase pD 1) [0, 1001 / 100]) ≤ 56 / 10000 := by decide +kernel
theorem pT_l1 : PolyQ.l1 (pcomp (resid [0, 1] mPhase [0, 1] 0) [0, 1001 / 100]) ≤ 3 / 10000 := by decide +kernel

/-! The equation of the centre -/

def cA : List ℚ := [0, -0.004817 + 1.914602 * 0.002516, -0.000014 + 1.914602 * 0.0000074]
def cB : List ℚ := [0, -0.000101 + 0.019993 * 2 * 0.002516, -0.019993 * (0.002516 * 0.002516 - 2 * 0.0000074), -0.019993 * 2 * 0.002516 * 0.0000074,
  -0.019993 * 0.0000074 * 0.0000074]
def cM : List ℚ := [357.52911 - 357.5291092, 35999.05029 - 35999.0502909, -0.0001537 + 0.0001535, -1 / 24490000]
theorem cA_l1 : PolyQ.l1 (pcomp cA [0, 1001 / 100]) ≤ 2 / 100000 := by decide +kernel
theorem cB_l1 : PolyQ.l1 (pcomp cB [0, 1001 / 100]) ≤ 3 / 100000 := by decide +kernel
theorem cM_l1 : PolyQ.l1 (pcomp cM [0, 1001 / 100]) ≤ 8 / 100000 := by decide +kernel

theorem sin_lip (a b : ℝ) : |sin a - sin b| ≤ |a - b| := by
  rw [sin_sub_sin, abs_mul, abs_mul, abs_two]
  have h1 := abs_sin_le_abs (x := (a - b) / 2)
  have h2 := abs_cos_le_one ((a + b) / 2)
  have h3 : |(a - b) / 2| = |a - b| / 2 := by rw [abs_div, abs_two]
  have := mul_le_mul h1 h2 (abs_nonneg _) (abs_nonneg _)
  linarith

/-- Where the mean arguments of the Moon are. -/
noncomputable def pt (T : ℝ) : Pt := ⟨Moonposition.argD T, Moonposition.argM T, Moonposition.argM' T, Moonposition.argF T, Moonposition.ecc T⟩

theorem scaled {p : List ℚ} {ε : ℚ} (h : PolyQ.l1 (pcomp p [0, 1001 / 100]) ≤ ε) {T : ℝ} (hT : |T| ≤ 10.01) : |PolyQ.ev p T| ≤ (ε : ℝ) := by
  have hT' : |T| ≤ ((1001 / 100 : ℚ) : ℝ) := by push_cast; norm_num at *; exact hT
  exact (abs_ev_le_scaled p (1001 / 100) (by norm_num) hT').trans (by exact_mod_cast h)

theorem center_gen (a b u v p q r s : ℝ) (M : ℝ) (hA : |u| ≤ 2e-5) (hB : |v| ≤ 3e-5) (hs : |p| ≤ 1) (hs2 : |q| ≤ 1) (h1 : |p - r| ≤ 2e-6) (h2 : |q - s| ≤ 4e-6)
    (h3 : |M| ≤ 6e-6) (ha : |a| ≤ 2) (hb : |b| ≤ 0.03) :
    |u * p + a * (p - r) + v * q + b * (q - s) + 0.000289 * M| ≤ 6e-5 := by
  have k1 : |u * p| ≤ 2e-5 := by rw [abs_mul]; exact (mul_le_mul hA hs (abs_nonneg _) (by norm_num)).trans (by norm_num)
  have k2 : |a * (p - r)| ≤ 4e-6 := by rw [abs_mul]; exact (mul_le_mul ha h1 (abs_nonneg _) (by norm_num)).trans (by norm_num)
  have k3 : |v * q| ≤ 3e-5 := by rw [abs_mul]; exact (mul_le_mul hB hs2 (abs_nonneg _) (by norm_num)).trans (by norm_num)
  have k4 : |b * (q - s)| ≤ 1.2e-7 := by rw [abs_mul]; exact (mul_le_mul hb h2 (abs_nonneg _) (by norm_num)).trans (by norm_num)
  generalize u * p = x1 at *
  generalize a * (p - r) = x2 at *
  generalize v * q = x3 at *
  generalize b * (q - s) = x4 at *
  rw [abs_le] at k1 k2 k3 k4 h3 ⊢
  norm_num at k1 k2 k3 k4 h3 ⊢
  constructor <;> linarith [k1.1, k1.2, k2.1, k2.2, k3.1, k3.2, k4.1, k4.2, h3.1, h3.2]

theorem ecc_one {T : ℝ} (hT : |T| ≤ 10.01) : |Moonposition.ecc T - 1| ≤ 0.026 := by
  have h1 : |T| ^ 2 ≤ 10.01 ^ 2 := by gcongr
  have e : Moonposition.ecc T - 1 = -0.002516 * T - 0.0000074 * T ^ 2 := by
    simp only [Moonposition.ecc, hornerR, List.foldr]; ring
  rw [sq_abs] at h1
  have h2 := sq_nonneg T
  rw [e]
  rw [abs_le] at *
  norm_num at *
  constructor <;> linarith

theorem deg_small : 0 < deg ∧ deg ≤ 0.0174533 := by
  obtain ⟨h1, h2⟩ := deg_num
  norm_num at *
  constructor <;> linarith

theorem center_rows {T : ℝ} (hT : |T| ≤ 10.01) :
    |Solar.center T / deg + 1e-6 * sinS (pt T) [⟨0, 1, 0, 0, 1, -1914602⟩, ⟨0, 2, 0, 0, 2, -19993⟩, ⟨0, 3, 0, 0, 0, -289⟩]| ≤ 6e-5 := by
  obtain ⟨d0, d1⟩ := deg_small
  have a1 := scaled cA_l1 hT
  have b1 := scaled cB_l1 hT
  have m1 := scaled cM_l1 hT
  have hM : Solar.MeanAnomaly T - Moonposition.argM T = deg * PolyQ.ev cM T := by
    simp only [Solar.MeanAnomaly, Moonposition.argM, hornerR, List.foldr, PolyQ.ev, cM]; push_cast; ring
  have hμ : |Solar.MeanAnomaly T - Moonposition.argM T| ≤ 2e-6 := by
    rw [hM, abs_mul, abs_of_pos d0]
    refine (mul_le_mul d1 m1 (abs_nonneg _) (by norm_num)).trans (by norm_num)
  have s1 := (sin_lip (Solar.MeanAnomaly T) (Moonposition.argM T)).trans hμ
  have s2 : |sin (Solar.MeanAnomaly T * 2) - sin (2 * Moonposition.argM T)| ≤ 4e-6 := by
    refine (sin_lip _ _).trans ?_
    rw [show Solar.MeanAnomaly T * 2 - 2 * Moonposition.argM T = 2 * (Solar.MeanAnomaly T - Moonposition.argM T) by ring, abs_mul, abs_two]
    norm_num at hμ ⊢; linarith
  have s3 : |sin (Solar.MeanAnomaly T * 3) - sin (3 * Moonposition.argM T)| ≤ 6e-6 := by
    refine (sin_lip _ _).trans ?_
    rw [show Solar.MeanAnomaly T * 3 - 3 * Moonposition.argM T = 3 * (Solar.MeanAnomaly T - Moonposition.argM T) by ring, abs_mul, Nat.abs_ofNat]
    norm_num at hμ ⊢; linarith
  have hE := abs_le.1 (ecc_one hT)
  have ha : |1.914602 * Moonposition.ecc T| ≤ 2 := by
    rw [abs_le]; norm_num at hE ⊢; constructor <;> linarith [hE.1, hE.2]
  have hb : |0.019993 * Moonposition.ecc T ^ 2| ≤ 0.03 := by
    rw [abs_mul, abs_pow]
    have h1 : |Moonposition.ecc T| ≤ 1.1 := by rw [abs_le]; norm_num at hE ⊢; constructor <;> linarith [hE.1, hE.2]
    have h2 : |Moonposition.ecc T| ^ 2 ≤ 1.1 ^ 2 := by gcongr
    rw [abs_of_pos (by norm_num)]; norm_num at h2 ⊢; linarith
  have key := center_gen (1.914602 * Moonposition.ecc T) (0.019993 * Moonposition.ecc T ^ 2) (PolyQ.ev cA T) (PolyQ.ev cB T)
    (sin (Solar.MeanAnomaly T)) (sin (Solar.MeanAnomaly T * 2)) (sin (Moonposition.argM T)) (sin (2 * Moonposition.argM T))
    (sin (Solar.MeanAnomaly T * 3) - sin (3 * Moonposition.argM T)) (a1.trans (by norm_num)) (b1.trans (by norm_num)) (abs_sin_le_one _) (abs_sin_le_one _)
    s1 s2 s3 ha hb
  have e : Solar.center T / deg + 1e-6 * sinS (pt T) [⟨0, 1, 0, 0, 1, -1914602⟩, ⟨0, 2, 0, 0, 2, -19993⟩, ⟨0, 3, 0, 0, 0, -289⟩] =
      PolyQ.ev cA T * sin (Solar.MeanAnomaly T) + 1.914602 * Moonposition.ecc T * (sin (Solar.MeanAnomaly T) - sin (Moonposition.argM T)) +
      PolyQ.ev cB T * sin (Solar.MeanAnomaly T * 2) + 0.019993 * Moonposition.ecc T ^ 2 * (sin (Solar.MeanAnomaly T * 2) - sin (2 * Moonposition.argM T)) +
      0.000289 * (sin (Solar.MeanAnomaly T * 3) - sin (3 * Moonposition.argM T)) := by
    have c1 : Solar.center T / deg = (1.914602 - 0.004817 * T - 0.000014 * T ^ 2) * sin (Solar.MeanAnomaly T) +
        (0.019993 - 0.000101 * T) * sin (Solar.MeanAnomaly T * 2) + 0.000289 * sin (Solar.MeanAnomaly T * 3) := by
      rw [div_eq_iff d0.ne']
      simp only [Solar.center, hornerR, List.foldr]; ring
    have c2 : Moonposition.ecc T = 1 - 0.002516 * T - 0.0000074 * T ^ 2 := by simp only [Moonposition.ecc, hornerR, List.foldr]; ring
    have c3 : sinS (pt T) [⟨0, 1, 0, 0, 1, -1914602⟩, ⟨0, 2, 0, 0, 2, -19993⟩, ⟨0, 3, 0, 0, 0, -289⟩] =
        -1914602 * Moonposition.ecc T * sin (Moonposition.argM T) - 19993 * Moonposition.ecc T ^ 2 * sin (2 * Moonposition.argM T) -
        289 * sin (3 * Moonposition.argM T) := by
      simp only [sinS, pt, Tm.ang, List.map_cons, List.map_nil, List.sum_cons, List.sum_nil, Int.cast_zero, Int.cast_one, Int.cast_neg, Int.cast_ofNat,
        zero_mul, zero_add, add_zero, one_mul, neg_mul, pow_zero, pow_one, mul_one]
      ring
    rw [c1, c3, c2]
    simp only [PolyQ.ev, cA, cB]; push_cast; ring
  rw [e]; exact key

/-! The table of the Moon -/

theorem ta_M : (Moonposition.ta.all fun r => Nat.ble r.M.natAbs 2) = true := by decide +kernel

theorem fac_pow (r : Moonposition.Row) (E : ℝ) (h : r.M.natAbs ≤ 2) : r.fac E = E ^ r.M.natAbs := by
  obtain h0 | h0 | h0 : r.M.natAbs = 0 ∨ r.M.natAbs = 1 ∨ r.M.natAbs = 2 := by omega
  · have : r.M = 0 := by omega
    simp [Moonposition.Row.fac, this]
  · have : r.M = 1 ∨ r.M = -1 := by omega
    have h' : r.M ≠ 0 := by omega
    simp [Moonposition.Row.fac, this, h', h0]
  · have : r.M = 2 ∨ r.M = -2 := by omega
    have h' : r.M ≠ 0 := by omega
    have h'' : ¬ (r.M = 1 ∨ r.M = -1) := by omega
    simp [Moonposition.Row.fac, this, h', h'', h0]; ring

theorem rows_eq (T : ℝ) (l : List Moonposition.Row) (h : (l.all fun r => Nat.ble r.M.natAbs 2) = true) :
    (l.map fun r => r.c * sin (r.arg T) * r.fac (Moonposition.ecc T)).sum = sinS (pt T) (l.map rowT) := by
  induction l with
  | nil => simp [sinS]
  | cons r l ih =>
    rw [List.all_cons, Bool.and_eq_true, Nat.ble_eq] at h
    rw [List.map_cons, List.sum_cons, List.map_cons, sinS_cons, ih h.2, fac_pow r _ h.1]
    have : (rowT r).ang (pt T) = r.arg T := by
      simp only [Tm.ang, rowT, pt, Moonposition.Row.arg]; ring
    rw [this]
    simp only [rowT, pt]; ring

theorem suml_rows (T : ℝ) : |Moonposition.suml T - sinS (pt T) (Moonposition.ta.map rowT)| ≤ 6238 := by
  unfold Moonposition.suml
  simp only
  rw [rows_eq T _ ta_M, add_sub_cancel_right]
  refine (abs_add_three _ _ _).trans ?_
  simp only [abs_mul, Nat.abs_ofNat]
  have h1 := abs_sin_le_one (119.75 * deg + 131.849 * deg * T)
  have h2 := abs_sin_le_one (Moonposition.meanLon T - Moonposition.argF T)
  have h3 := abs_sin_le_one (53.09 * deg + 479264.29 * deg * T)
  linarith

/-! Assembly -/

theorem ecc_lip {T T' : ℝ} (hT : |T| ≤ 11) (hT' : |T'| ≤ 11) (h : |T - T'| ≤ 4e-4) : |Moonposition.ecc T - Moonposition.ecc T'| ≤ 2e-5 := by
  have e : Moonposition.ecc T - Moonposition.ecc T' = (T - T') * (-0.002516 - 0.0000074 * (T + T')) := by
    simp only [Moonposition.ecc, hornerR, List.foldr]; ring
  have k : |-0.002516 - 0.0000074 * (T + T')| ≤ 0.01 := by
    rw [abs_le] at *; norm_num at *; constructor <;> linarith
  rw [e, abs_mul]
  exact (mul_le_mul h k (abs_nonneg _) (by norm_num)).trans (by norm_num)

/-- The arguments at a date `h` centuries after the mean phase. -/
theorem close_date {k T T0 h D0 : ℝ} {n : ℤ} {q : ℝ} (hk : k = n + q) (hTk : T = k / 1236.85) (hT : |T| ≤ 10.01) (hT0 : T0 = (Moonphase.mean T - 2451545) / 36525)
    (hD : D0 = q * (2 * π)) (ht : |T0| ≤ 11) (hh : |h| ≤ 3e-5) :
    Close (pt (T0 + h)) (Pt.shift ⟨D0, Moonposition.argM T0, Moonposition.argM' T0, Moonposition.argF T0, Moonposition.ecc (T0 + h)⟩ wq (1e-7 * deg * h)) 1e-4 := by
  obtain ⟨d0, d1⟩ := deg_small
  have hT' : |T| ≤ ((1001 / 100 : ℚ) : ℝ) := by push_cast; norm_num at *; exact hT
  have fin : ∀ u : ℝ, |u| ≤ 1e-5 → |deg * u| ≤ 1e-4 := by
    intro u hu
    rw [abs_mul, abs_of_pos d0]
    exact (mul_le_mul d1 hu (abs_nonneg _) (by norm_num)).trans (by norm_num)
  refine ⟨⟨n + 1, ?_⟩, ⟨0, ?_⟩, ⟨0, ?_⟩, ⟨0, ?_⟩, ?_⟩
  · have r := resid_bound qD mPhase pD 1 (1001 / 100) _ (by norm_num) pD_l2 hT'
    rw [← mPhase_ev, ← hT0] at r
    have r2 : PolyQ.ev pD T = 360 * k := by rw [hTk]; simp only [PolyQ.ev, pD]; push_cast; ring
    have l := lin_D ht hh
    have e : (pt (T0 + h)).D - (Pt.shift ⟨D0, Moonposition.argM T0, Moonposition.argM' T0, Moonposition.argF T0, Moonposition.ecc (T0 + h)⟩ wq (1e-7 * deg * h)).D -
        ((n + 1 : ℤ) : ℝ) * (2 * π) = deg * ((PolyQ.ev qD (T0 + h) - PolyQ.ev qD T0 - 445267.1114034 * h) + (PolyQ.ev qD T0 - PolyQ.ev pD T - 360 * (1 : ℤ))) := by
      rw [r2, hk]
      simp only [pt, Pt.shift, wq, argD_ev, hD]; push_cast; unfold deg; ring
    rw [e, abs_mul, abs_of_pos d0]
    refine (mul_le_mul d1 ((abs_add_le _ _).trans (add_le_add l r)) (abs_nonneg _) (by norm_num)).trans ?_
    push_cast; norm_num
  · have l := lin_M ht hh
    have e : (pt (T0 + h)).M - (Pt.shift ⟨D0, Moonposition.argM T0, Moonposition.argM' T0, Moonposition.argF T0, Moonposition.ecc (T0 + h)⟩ wq (1e-7 * deg * h)).M -
        ((0 : ℤ) : ℝ) * (2 * π) = deg * (PolyQ.ev qM (T0 + h) - PolyQ.ev qM T0 - 35999.0502909 * h) := by
      simp only [pt, Pt.shift, wq, argM_ev]; push_cast; ring
    rw [e]; exact fin _ l
  · have l := lin_P ht hh
    have e : (pt (T0 + h)).P - (Pt.shift ⟨D0, Moonposition.argM T0, Moonposition.argM' T0, Moonposition.argF T0, Moonposition.ecc (T0 + h)⟩ wq (1e-7 * deg * h)).P -
        ((0 : ℤ) : ℝ) * (2 * π) = deg * (PolyQ.ev qM' (T0 + h) - PolyQ.ev qM' T0 - 477198.8675055 * h) := by
      simp only [pt, Pt.shift, wq, argM'_ev]; push_cast; ring
    rw [e]; exact fin _ l
  · have l := lin_F ht hh
    have e : (pt (T0 + h)).F - (Pt.shift ⟨D0, Moonposition.argM T0, Moonposition.argM' T0, Moonposition.argF T0, Moonposition.ecc (T0 + h)⟩ wq (1e-7 * deg * h)).F -
        ((0 : ℤ) : ℝ) * (2 * π) = deg * (PolyQ.ev qF (T0 + h) - PolyQ.ev qF T0 - 483202.0175233 * h) := by
      simp only [pt, Pt.shift, wq, argF_ev]; push_cast; ring
    rw [e]; exact fin _ l
  · show |Moonposition.ecc (T0 + h) - Moonposition.ecc (T0 + h)| ≤ 1e-4
    rw [sub_self, abs_zero]; norm_num

/-- Elongation of the Moon from the Sun, with the constant of aberration. -/
noncomputable def elong (T : ℝ) : ℝ :=
  Moonposition.meanLon T + Moonposition.suml T * 1e-6 * deg - (Solar.meanLon T + Solar.center T) + 0.0057 * deg

theorem phase_gen {k C D0 q : ℝ} {n : ℤ} (hk : k = n + q) (hk' : |k| ≤ 12370) (hD : D0 = q * (2 * π)) (col : Tm → Tm) (Cl : List Tm)
    (hcol : ∀ x : Pt, x.D = D0 → ∀ t, (col t).ev x = t.ev x) (N s a b : ℕ)
    (hn : Laurent.l1 Cl ≤ N) (hnb : Laurent.l1 (Cl.filter (big 30)) ≤ N) (hs : Laurent.l1 (Cl.filter (small 30)) ≤ s) (he : emax2 Cl = true) (hn' : N ≤ 84500)
    (hl : lipn Cl ≤ 110000) (hab : Laurent.l1 (one (poly col Cl)) ≤ a ∧ le (poly col Cl) ≤ b)
    (hC : |C - 1e-5 * sinS (mpt D0 (Moonphase.newMpK k)) Cl| ≤ 0.00147) :
    ∃ j : ℤ, |elong (J2000Century (Moonphase.mean (Moonphase.newMpK k).T + C)) - D0 - j * (2 * π)| ≤ (dep N s a b 0.0015 + 8416) * 1e-6 * deg := by
  obtain ⟨d0, d1⟩ := deg_small
  set T := (Moonphase.newMpK k).T with hTd
  have hTk : T = k / 1236.85 := by
    show k * Moonphase.ck = _
    unfold Moonphase.ck; ring
  have hT : |T| ≤ 10.0013 := by
    rw [hTk, abs_div, abs_of_pos (by norm_num : (0 : ℝ) < 1236.85), div_le_iff₀ (by norm_num)]
    exact hk'.trans (by norm_num)
  have hT' : |T| ≤ ((1001 / 100 : ℚ) : ℝ) := hT.trans (by push_cast; norm_num)
  set T0 := (Moonphase.mean T - 2451545) / 36525 with hT0
  have t0 : |T0 - T| ≤ 3e-4 := by
    have r := resid_bound [0, 1] mPhase [0, 1] 0 (1001 / 100) _ (by norm_num) pT_l1 hT'
    rw [← mPhase_ev, ← hT0] at r
    simp only [PolyQ.ev] at r
    push_cast at r
    norm_num at r ⊢
    exact r
  have t1 : |T0| ≤ 10.002 := by
    rw [abs_le] at *; norm_num at *; constructor <;> linarith
  -- size of the correction
  have hE0 : |(Moonphase.newMpK k).E| ≤ 1.03 := by
    have := ecc_one (T := T) (hT.trans (by norm_num))
    have e : (Moonphase.newMpK k).E = Moonposition.ecc T := rfl
    rw [e]; rw [abs_le] at *; norm_num at *; constructor <;> linarith
  have cs : |C| ≤ 0.92 := by
    have h1 := sinS_abs (mpt D0 (Moonphase.newMpK k)) Cl hE0 he
    have h2 : (1.061 : ℝ) * (Laurent.l1 Cl : ℝ) ≤ 1.061 * 84500 := by
      have : (Laurent.l1 Cl : ℝ) ≤ 84500 := by exact_mod_cast hn.trans hn'
      gcongr
    have h3 := h1.trans h2
    generalize sinS (mpt D0 (Moonphase.newMpK k)) Cl = u at *
    clear h1 h2
    rw [abs_le] at *; norm_num at h3 hC ⊢; constructor <;> linarith [h3.1, h3.2, hC.1, hC.2]
  set h := C / 36525 with hh
  have hh' : |h| ≤ 3e-5 := by
    rw [hh, abs_div, abs_of_pos (by norm_num : (0 : ℝ) < 36525), div_le_iff₀ (by norm_num)]
    exact cs.trans (by norm_num)
  have hT1 : J2000Century (Moonphase.mean T + C) = T0 + h := by
    rw [hT0, hh]; unfold J2000Century; ring
  have t2 : |T0 + h| ≤ 10.01 := (abs_add_le _ _).trans ((add_le_add t1 hh').trans (by norm_num))
  set x0 : Pt := ⟨D0, Moonposition.argM T0, Moonposition.argM' T0, Moonposition.argF T0, Moonposition.ecc (T0 + h)⟩ with hx0
  have hE := ecc_one t2
  have hE3 : |Moonposition.ecc (T0 + h)| ≤ 1.03 := by
    rw [abs_le] at *; norm_num at hE ⊢; constructor <;> linarith [hE.1, hE.2]
  -- the correction at the arguments of the Moon
  obtain ⟨-, ⟨m1, p1⟩, ⟨m2, p2⟩, ⟨m3, p3⟩, -⟩ := C165_phase_arguments k (hk'.trans (by norm_num))
  have tiny : ∀ {u c : ℝ}, c ≤ 0.001 → |u| ≤ c * deg → |u| ≤ 2e-5 := by
    intro u c hc hu
    refine hu.trans ((mul_le_mul hc d1 d0.le (by norm_num)).trans (by norm_num))
  have cl : Close x0 (mpt D0 (Moonphase.newMpK k)) 2e-5 := by
    refine ⟨⟨0, ?_⟩, ⟨m1, tiny le_rfl p1⟩, ⟨m2, tiny le_rfl p2⟩, ⟨m3, tiny (by norm_num) p3⟩, ?_⟩
    · show |D0 - D0 - _| ≤ _
      norm_num
    · have : |T0 + h - T| ≤ 4e-4 := by
        rw [show T0 + h - T = (T0 - T) + h by ring]
        exact (abs_add_le _ _).trans ((add_le_add t0 hh').trans (by norm_num))
      exact ecc_lip (t2.trans (by norm_num)) (hT.trans (by norm_num)) this
  have hC2 : |C - 1e-5 * sinS x0 Cl| ≤ 0.0015 := by
    have h1 := close_lip cl Cl hE3 hE0 he
    have h2 : (1.061 : ℝ) * 2e-5 * (lipn Cl : ℝ) ≤ 1.061 * 2e-5 * 110000 := by
      have : (lipn Cl : ℝ) ≤ 110000 := by exact_mod_cast hl
      gcongr
    have h3 := h1.trans h2
    clear h1 h2
    generalize sinS (mpt D0 (Moonphase.newMpK k)) Cl = u at *
    generalize sinS x0 Cl = v at *
    rw [abs_le] at h3 hC ⊢; norm_num at h3 hC ⊢; constructor <;> linarith [h3.1, h3.2, hC.1, hC.2]
  have K := core col Cl x0 (hcol x0 rfl) hE N s a b hn hnb hs he hn' hab.1 hab.2 C 0.0015 hC2
  have cd := close_date hk hTk (hT.trans (by norm_num)) hT0 hD (t1.trans (by norm_num)) hh'
  have L := close_lip cd rowsL hE3 hE3 n_e
  rw [show 1e-7 * deg * C / 36525 = 1e-7 * deg * h by rw [hh]; ring] at K
  have L2 : (1.061 : ℝ) * 1e-4 * (lipn rowsL : ℝ) ≤ 1.061 * 1e-4 * 18074535 := by
    have : (lipn rowsL : ℝ) ≤ 18074535 := by exact_mod_cast lip_rowsL
    gcongr
  have L3 := L.trans L2
  have X1 := lin_X (t1.trans (by norm_num)) hh'
  have X2 := resid_bound qX mPhase pD 0 (1001 / 100) _ (by norm_num) pX_l1 hT'
  rw [← mPhase_ev, ← hT0] at X2
  have r2 : PolyQ.ev pD T = 360 * k := by rw [hTk]; simp only [PolyQ.ev, pD]; push_cast; ring
  have S1 := center_rows t2
  have S2 := suml_rows (T0 + h)
  have hR : sinS (pt (T0 + h)) rowsL = sinS (pt (T0 + h)) (Moonposition.ta.map rowT) +
      sinS (pt (T0 + h)) [⟨0, 1, 0, 0, 1, -1914602⟩, ⟨0, 2, 0, 0, 2, -19993⟩, ⟨0, 3, 0, 0, 0, -289⟩] := sinS_append _ _ _
  refine ⟨n, ?_⟩
  rw [hT1]
  have hm : Moonposition.meanLon (T0 + h) - Solar.meanLon (T0 + h) + 0.0057 * deg = deg * PolyQ.ev qX (T0 + h) := by
    simp only [Moonposition.meanLon, Solar.meanLon, hornerR, List.foldr, PolyQ.ev, qX]; push_cast; ring
  have e : elong (T0 + h) - D0 - n * (2 * π) = deg * (1e-6 * (445267.11140421e6 * C / 36525 + sinS (x0.shift wq (1e-7 * deg * h)) rowsL) +
      1e-6 * (sinS (pt (T0 + h)) rowsL - sinS (x0.shift wq (1e-7 * deg * h)) rowsL) +
      1e-6 * (Moonposition.suml (T0 + h) - sinS (pt (T0 + h)) (Moonposition.ta.map rowT)) -
      (Solar.center (T0 + h) / deg + 1e-6 * sinS (pt (T0 + h)) [⟨0, 1, 0, 0, 1, -1914602⟩, ⟨0, 2, 0, 0, 2, -19993⟩, ⟨0, 3, 0, 0, 0, -289⟩]) +
      (PolyQ.ev qX (T0 + h) - PolyQ.ev qX T0 - 445267.11140421 * h) + (PolyQ.ev qX T0 - PolyQ.ev pD T - 360 * (0 : ℤ))) := by
    have e1 : elong (T0 + h) = deg * PolyQ.ev qX (T0 + h) + Moonposition.suml (T0 + h) * 1e-6 * deg - deg * (Solar.center (T0 + h) / deg) := by
      rw [← hm, mul_div_cancel₀ _ d0.ne']; unfold elong; ring
    have e2 : D0 + n * (2 * π) = deg * (360 * k) := by rw [hD, hk]; unfold deg; ring
    have e3 : (445267.11140421e6 * C / 36525 : ℝ) = 445267.11140421e6 * h := by rw [hh]; ring
    rw [e3, show elong (T0 + h) - D0 - n * (2 * π) = elong (T0 + h) - (D0 + n * (2 * π)) by ring, e1, e2, r2, hR]
    push_cast
    clear_value h x0
    ring
  rw [e, abs_mul, abs_of_pos d0, mul_comm]
  refine mul_le_mul_of_nonneg_right ?_ d0.le
  generalize dep N s a b 0.0015 = dp at *
  generalize 445267.11140421e6 * C / 36525 + sinS (x0.shift wq (1e-7 * deg * h)) rowsL = u1 at *
  generalize sinS (pt (T0 + h)) rowsL - sinS (x0.shift wq (1e-7 * deg * h)) rowsL = u2 at *
  generalize Moonposition.suml (T0 + h) - sinS (pt (T0 + h)) (Moonposition.ta.map rowT) = u3 at *
  generalize Solar.center (T0 + h) / deg + 1e-6 * sinS (pt (T0 + h)) [⟨0, 1, 0, 0, 1, -1914602⟩, ⟨0, 2, 0, 0, 2, -19993⟩, ⟨0, 3, 0, 0, 0, -289⟩] = u4 at *
  generalize PolyQ.ev qX (T0 + h) - PolyQ.ev qX T0 - 445267.11140421 * h = u5 at *
  generalize PolyQ.ev qX T0 - PolyQ.ev pD T - 360 * (0 : ℤ) = u6 at *
  clear * - K L3 X1 X2 S1 S2
  rw [abs_le] at *
  push_cast at *
  norm_num at *
  constructor <;> linarith [K.1, K.2, L3.1, L3.2, X1.1, X1.2, X2.1, X2.2, S1.1, S1.2, S2.1, S2.2]

/-- The lunation numbers of the years 1000 to 3000. -/
theorem snap_range2 {y : ℝ} (q : ℝ) (hq : |q| ≤ 1) (h : |y - 2000| ≤ 1000) :
    ∃ n : ℤ, Moonphase.snap y q = n + q ∧ |Moonphase.snap y q| ≤ 12370 := by
  obtain ⟨n, h1, h2⟩ := snap_nearest y q
  refine ⟨n, h1, ?_⟩
  rw [h1]
  rw [abs_le] at *
  constructor <;> norm_num at * <;> linarith

/-! The four phases -/

theorem phases_eq (k : ℝ) :
    Moonphase.newK k = Moonphase.mean (Moonphase.newMpK k).T + (Moonphase.nfc (Moonphase.newMpK k) Moonphase.nc + Moonphase.a (Moonphase.newMpK k)) ∧
    Moonphase.firstK k = Moonphase.mean (Moonphase.newMpK k).T + (Moonphase.flc (Moonphase.newMpK k) + Moonphase.w (Moonphase.newMpK k) + Moonphase.a (Moonphase.newMpK k)) ∧
    Moonphase.fullK k = Moonphase.mean (Moonphase.newMpK k).T + (Moonphase.nfc (Moonphase.newMpK k) Moonphase.fc + Moonphase.a (Moonphase.newMpK k)) ∧
    Moonphase.lastK k = Moonphase.mean (Moonphase.newMpK k).T + (Moonphase.flc (Moonphase.newMpK k) - Moonphase.w (Moonphase.newMpK k) + Moonphase.a (Moonphase.newMpK k)) := by
  refine ⟨?_, ?_, ?_, ?_⟩
  · unfold Moonphase.newK; dsimp only; ring
  · unfold Moonphase.firstK; dsimp only; ring
  · unfold Moonphase.fullK; dsimp only; ring
  · unfold Moonphase.lastK; dsimp only; ring

theorem corr_bound (k S c : ℝ) (h : c = 1e-5 * S - 0.00017 * sin (Moonphase.newMpK k).Ω) :
    |c + Moonphase.a (Moonphase.newMpK k) - 1e-5 * S| ≤ 0.00147 := by
  have h1 := abs_le.1 (a_abs k)
  have h2 := sin_le_one (Moonphase.newMpK k).Ω
  have h3 := neg_one_le_sin (Moonphase.newMpK k).Ω
  rw [h, abs_le]
  norm_num at h1 ⊢
  constructor <;> linarith [h1.1, h1.2]

theorem dep_new : (dep 62472 57 1068047096261741294335957382517185009165905518366566358 2540131934909921503092254395056647367692216090922820036 0.0015 + 8416) * 1e-6 ≤ 0.055 := by
  unfold dep; norm_num
theorem dep_full : (dep 62434 57 1346609989478563464209548281445828859010545183554356120 2696888353822426386201429523892157895768426338679749104 0.0015 + 8416) * 1e-6 ≤ 0.055 := by
  unfold dep; norm_num
theorem dep_quarter : (dep 84328 116 2604409882670322193384065778717020214796794587467760614 2611517593240720076405235156824474776376714962119010779 0.0015 + 8416) * 1e-6 ≤ 0.085 := by
  unfold dep; norm_num

/-- Longitude of the Moon less that of the Sun, given by packages moonposition and solar. -/
theorem elong_eq (jde : ℝ) : ∃ j : ℤ, (Moonposition.Position jde).1 - (Solar.TrueLon (J2000Century jde)).1 + 0.0057 * deg =
    elong (J2000Century jde) + j * (2 * π) := by
  obtain ⟨-, -, a, ha⟩ := mod1_eq (Moonposition.meanLon (J2000Century jde))
  obtain ⟨-, -, b, hb⟩ := mod1_eq (Solar.meanLon (J2000Century jde) + Solar.center (J2000Century jde))
  refine ⟨b - a, ?_⟩
  unfold elong Moonposition.Position Solar.TrueLon
  dsimp only
  push_cast
  linarith

theorem elong_congr {jde D0 ε δ : ℝ} (h : ∃ j : ℤ, |elong (J2000Century jde) - D0 - j * (2 * π)| ≤ ε * deg) (hε : ε ≤ δ) :
    Congr ((Moonposition.Position jde).1 - (Solar.TrueLon (J2000Century jde)).1 + 0.0057 * deg) D0 δ := by
  obtain ⟨j, hj⟩ := h
  obtain ⟨i, hi⟩ := elong_eq jde
  refine ⟨i + j, ?_⟩
  rw [hi]
  push_cast
  rw [show elong (J2000Century jde) + i * (2 * π) - D0 - (i + j) * (2 * π) = elong (J2000Century jde) - D0 - j * (2 * π) by ring]
  exact hj.trans (mul_le_mul_of_nonneg_right hε deg_small.1.le)

/-- **C170.**  At the instants which package moonphase gives for the new moon, the first quarter, the full moon and the last quarter, the longitude of the Moon of package
moonposition exceeds the apparent longitude of the Sun of package solar (true longitude less 0.0057° for the aberration) by 0°, 90°, 180° and 270°, within
0.055° for the new and the full moon and 0.085° for the quarters, which the Moon covers in 7 and 11 minutes, for any year from 1000 to 3000. -/
theorem C170_phases (year : ℝ) (h : |year - 2000| ≤ 1000) :
    let elongation (jde : ℝ) := (Moonposition.Position jde).1 - (Solar.TrueLon (J2000Century jde)).1 + 0.0057 * deg
    Congr (elongation (Moonphase.New year)) 0 0.055 ∧ Congr (elongation (Moonphase.First year)) (π / 2) 0.085 ∧
    Congr (elongation (Moonphase.Full year)) π 0.055 ∧ Congr (elongation (Moonphase.Last year)) (3 * π / 2) 0.085 := by
  refine ⟨?_, ?_, ?_, ?_⟩
  · obtain ⟨n, h1, h2⟩ := snap_range2 (y := year) 0 (by norm_num) h
    have e := (phases_eq (Moonphase.snap year 0)).1
    refine elong_congr ?_ dep_new
    rw [show Moonphase.New year = Moonphase.newK (Moonphase.snap year 0) from rfl, e]
    exact phase_gen (D0 := 0) h1 h2 (by ring) col0 newC (fun x hx => col0_ev x hx) 62472 57 _ _ (by decide +kernel) (by decide +kernel) (by decide +kernel) (by decide +kernel)
      (by norm_num) (by decide +kernel) new_fit (corr_bound _ _ _ (nfc_new 0 _))
  · obtain ⟨n, h1, h2⟩ := snap_range2 (y := year) 0.25 (by norm_num [abs_of_pos]) h
    have e := (phases_eq (Moonphase.snap year 0.25)).2.1
    refine elong_congr ?_ dep_quarter
    rw [show Moonphase.First year = Moonphase.firstK (Moonphase.snap year 0.25) from rfl, e]
    refine phase_gen (D0 := π / 2) h1 h2 (by ring) col1 quarterC (fun x hx => col1_ev x ?_) 84328 116 _ _ (by decide +kernel) (by decide +kernel) (by decide +kernel) (by decide +kernel)
      (by norm_num) (by decide +kernel) quarter_fit (corr_bound _ _ _ (flc_first _))
    rw [hx, ← Complex.exp_nat_mul, show ((2 : ℕ) : ℂ) * (((π / 2 : ℝ) : ℂ) * Complex.I) = π * Complex.I by push_cast; ring, Complex.exp_pi_mul_I]
  · obtain ⟨n, h1, h2⟩ := snap_range2 (y := year) 0.5 (by norm_num [abs_of_pos]) h
    have e := (phases_eq (Moonphase.snap year 0.5)).2.2.1
    refine elong_congr ?_ dep_full
    rw [show Moonphase.Full year = Moonphase.fullK (Moonphase.snap year 0.5) from rfl, e]
    refine phase_gen (D0 := π) h1 h2 (by ring) col2 fullC (fun x hx => col2_ev x ?_) 62434 57 _ _ (by decide +kernel) (by decide +kernel) (by decide +kernel) (by decide +kernel)
      (by norm_num) (by decide +kernel) full_fit (corr_bound _ _ _ (nfc_full π _))
    rw [hx, Complex.exp_pi_mul_I]
  · obtain ⟨n, h1, h2⟩ := snap_range2 (y := year) 0.75 (by norm_num [abs_of_pos]) h
    have e := (phases_eq (Moonphase.snap year 0.75)).2.2.2
    refine elong_congr ?_ dep_quarter
    rw [show Moonphase.Last year = Moonphase.lastK (Moonphase.snap year 0.75) from rfl, e]
    refine phase_gen (D0 := 3 * π / 2) h1 h2 (by ring) col1 quarterC (fun x hx => col1_ev x ?_) 84328 116 _ _ (by decide +kernel) (by decide +kernel) (by decide +kernel) (by decide +kernel)
      (by norm_num) (by decide +kernel) quarter_fit (corr_bound _ _ _ (flc_last _))
    rw [hx, ← Complex.exp_nat_mul, show ((2 : ℕ) : ℂ) * (((3 * π / 2 : ℝ) : ℂ) * Complex.I) = π * Complex.I + 2 * π * Complex.I by push_cast; ring,
      Complex.exp_add, Complex.exp_two_pi_mul_I, mul_one, Complex.exp_pi_mul_I]

/-- The new moon of February 1977, example 49.a of the book. -/
example : |(1977.13 : ℝ) - 2000| ≤ 1000 := by norm_num [abs_le]

end Verif.Props
