import Verif.Lemmas.Eclipse
import Verif.Spec.Eclipse

/-! Properties C58, C59 and C94: eclipses. -/

namespace Verif.Props

open Verif.Model Verif.Model.Eclipse Verif.Lemmas Verif.Lemmas.Eclipse Verif.Spec.Eclipse Real

/-- The distance γ of the shadow axis for lunation number k, whether or not there is an eclipse. -/
noncomputable def axis (k : ℝ) : ℝ :=
  let T := k * Moonphase.ck
  gammaOf (argE T) (argM T) (argM' T) (argF T - 0.02665 * deg * sin (argΩ T))

/-- The radius u for lunation number k. -/
noncomputable def umbra (k : ℝ) : ℝ := let T := k * Moonphase.ck; uOf (argE T) (argM T) (argM' T)

theorem u_eq (E M M' : ℝ) : uOf E M M' = u' E (sin M) (cos M) (sin M') (cos M') := by
  unfold uOf u'; rw [cos_two_mul, cos_add]; ring

theorem Q_eq (E M M' : ℝ) : Q E M M' = Q' E (sin M) (cos M) (sin M') (cos M') := by
  unfold Q Q'; rw [cos_two_mul', cos_add, cos_sub]; ring

theorem P_eq (E M M' F1 : ℝ) : P E M M' F1 = P' E (sin M) (cos M) (sin M') (cos M') + 0.0236 * sin F1 * cos F1 := by
  unfold P P'; rw [sin_two_mul, sin_two_mul, sin_two_mul, sin_add, sin_sub]; ring

/-- The axis is far from the centre when the argument of latitude is. -/
theorem far (E M M' F1 : ℝ) (hE : 0.9 ≤ E) (hE' : E ≤ 1.07) (hs : 0.3595 ≤ |sin F1|) : 1.5573 + uOf E M M' < |gammaOf E M M' F1| := by
  have sc : ∀ z : ℝ, sin z ^ 2 + cos z ^ 2 = 1 := sin_sq_add_cos_sq
  have c1 := core E (sin M) (cos M) (sin M') (cos M') hE hE' (sc M) (sc M')
  have c2 := core E (-sin M) (cos M) (-sin M') (cos M') hE hE' (by rw [neg_sq]; exact sc M) (by rw [neg_sq]; exact sc M')
  have e1 : u' E (-sin M) (cos M) (-sin M') (cos M') = u' E (sin M) (cos M) (sin M') (cos M') := by unfold u'; ring
  have e2 : Q' E (-sin M) (cos M) (-sin M') (cos M') = Q' E (sin M) (cos M) (sin M') (cos M') := by unfold Q'; ring
  have e3 : P' E (-sin M) (cos M) (-sin M') (cos M') = -P' E (sin M) (cos M) (sin M') (cos M') := by unfold P'; ring
  rw [e1, e2, e3] at c2
  unfold gammaOf
  rw [u_eq, Q_eq, P_eq]
  obtain ⟨hx, hy⟩ := unit_bd (sc M')
  obtain ⟨ha, hb⟩ := unit_bd (sc M)
  set q := Q' E (sin M) (cos M) (sin M') (cos M') with hq
  set p := P' E (sin M) (cos M) (sin M') (cos M') with hp
  set w := u' E (sin M) (cos M) (sin M') (cos M') with hw
  have hEa : |E| ≤ 1.07 := by rw [abs_le]; constructor <;> norm_num at * <;> linarith
  have hw0 : -1.5573 < w := by
    have b1 := abs_le.1 (mul_bd hb hEa)
    have b2 := abs_le.1 (mul_bd hb hy)
    have b3 := abs_le.1 (mul_bd ha hx)
    rw [abs_le] at hy
    rw [hw]; unfold u'
    norm_num at *
    nlinarith [sq_nonneg (cos M'), hy.1, hy.2, b1.1, b2.1, b2.2, b3.1, b3.2]
  clear_value q p w
  have hc : |cos F1| ≤ 0.9332 := by
    have h1 : |sin F1| ^ 2 = sin F1 ^ 2 := sq_abs _
    have h2 : |cos F1| ^ 2 = cos F1 ^ 2 := sq_abs _
    have h3 := sc F1
    rw [← h1, ← h2] at h3
    have h4 := abs_nonneg (cos F1)
    clear * - h3 h4 hs
    norm_num at hs ⊢
    nlinarith
  have hq0 : 0 ≤ q := by norm_num at *; linarith
  have hpq : 1.5573 + w < 0.9952 * (0.3595 * q - 0.9332 * |p|) := by
    rcases abs_cases p with ⟨h, -⟩ | ⟨h, -⟩ <;> rw [h] <;> linarith
  have lower : 0.3595 * q - 0.9332 * |p| ≤ |(p + 0.0236 * sin F1 * cos F1) * cos F1 + q * sin F1| := by
    have e : (p + 0.0236 * sin F1 * cos F1) * cos F1 + q * sin F1 = sin F1 * (q + 0.0236 * cos F1 ^ 2) - -(p * cos F1) := by ring
    rw [e]
    refine le_trans ?_ (abs_sub_abs_le_abs_sub _ _)
    rw [abs_mul, abs_neg, abs_mul, abs_of_nonneg (a := q + 0.0236 * cos F1 ^ 2) (by positivity)]
    have h1 : 0.3595 * q ≤ |sin F1| * (q + 0.0236 * cos F1 ^ 2) :=
      mul_le_mul hs (by have := sq_nonneg (cos F1); norm_num; linarith) hq0 (abs_nonneg _)
    have h2 : |p| * |cos F1| ≤ 0.9332 * |p| := by rw [mul_comm]; exact mul_le_mul_of_nonneg_right hc (abs_nonneg _)
    linarith
  have hcone := abs_nonneg (cos F1)
  rw [abs_mul, abs_of_pos (a := 1 - 0.0048 * |cos F1|) (by norm_num at *; linarith)]
  have hpos : 0 ≤ 0.3595 * q - 0.9332 * |p| := by norm_num at *; linarith
  have h3 : (0.3595 * q - 0.9332 * |p|) * 0.9952 ≤
      |(p + 0.0236 * sin F1 * cos F1) * cos F1 + q * sin F1| * (1 - 0.0048 * |cos F1|) :=
    mul_le_mul lower (by norm_num at *; linarith) (by norm_num) (abs_nonneg _)
  linarith

theorem ecl_T {k : ℝ} (hk : |k| ≤ 37000) : |k * Moonphase.ck| ≤ 30 := by
  unfold Moonphase.ck
  rw [abs_mul, abs_of_pos (a := (1 : ℝ) / 1236.85) (by norm_num)]
  norm_num at *
  linarith

theorem ecl_E {T : ℝ} (hT : |T| ≤ 30) : 0.9 ≤ argE T ∧ argE T ≤ 1.07 := by
  rw [abs_le] at hT
  unfold argE
  simp only [hornerR, List.foldr_cons, List.foldr_nil]
  constructor <;> norm_num <;> nlinarith

/-- C94.  The test |sin F| > 0.36 with which the functions leave early never hides an eclipse: whenever it holds, the shadow axis passes outside the penumbra plus the
disc of the Moon (lunar limit 1.5573 + u, hence also the solar limit 1.5433 + u), for ±37000 lunations (years −990 to 4990). -/
theorem C94_no_eclipse_missed (k : ℝ) (hk : |k| ≤ 37000) (hF : 0.36 < |sin (argF (k * Moonphase.ck))|) : 1.5573 + umbra k < |axis k| := by
  obtain ⟨h1, h2⟩ := ecl_E (ecl_T hk)
  refine far _ _ _ _ h1 h2 ?_
  set F := argF (k * Moonphase.ck)
  set s := sin (argΩ (k * Moonphase.ck))
  have hd : |deg| ≤ 0.0175 := by
    unfold deg; rw [abs_of_pos (by positivity)]; have := pi_lt_d2; norm_num at *; linarith
  have h3 : |F - (F - 0.02665 * deg * s)| ≤ 0.000467 := by
    rw [show F - (F - 0.02665 * deg * s) = 0.02665 * (deg * s) by ring, abs_mul, abs_of_pos (by norm_num : (0 : ℝ) < 0.02665)]
    have := mul_bd hd (abs_sin_le_one (argΩ (k * Moonphase.ck)))
    norm_num at *
    linarith
  have h4 := (abs_sub_abs_le_abs_sub _ _).trans (abs_sin_sub_sin_le F (F - 0.02665 * deg * s))
  norm_num at *
  linarith

/-- C94.  The hypothesis is met: at lunation 3 (April 2000) there is no eclipse. -/
theorem C94_example : 0.36 < |sin (argF (3 * Moonphase.ck))| := by
  have hd : 0 < deg := by unfold deg; positivity
  have hp : π = 180 * deg := by unfold deg; ring
  have e : argF (3 * Moonphase.ck) = (argF (3 * Moonphase.ck) - 1260 * deg) - π + (4 : ℕ) * (2 * π) := by rw [hp]; push_cast; ring
  have hx : 72 * deg ≤ argF (3 * Moonphase.ck) - 1260 * deg ∧ argF (3 * Moonphase.ck) - 1260 * deg ≤ 90 * deg := by
    unfold argF Moonphase.ck hornerR
    norm_num
    constructor <;> linarith
  rw [e, sin_add_nat_mul_two_pi, sin_sub_pi, abs_neg]
  have h : sin (π / 6) ≤ sin (argF (3 * Moonphase.ck) - 1260 * deg) :=
    sin_le_sin_of_le_of_le_pi_div_two (by rw [hp]; linarith) (by rw [hp]; linarith [hx.2]) (by rw [hp]; linarith [hx.1])
  rw [sin_pi_div_six] at h
  rw [abs_of_nonneg (by linarith)]
  norm_num; linarith

theorem umbra_bd (k : ℝ) (hk : |k| ≤ 37000) : -0.019 ≤ umbra k ∧ umbra k ≤ 0.031 := by
  obtain ⟨h1, h2⟩ := ecl_E (ecl_T hk)
  unfold umbra
  dsimp only
  unfold uOf
  set E := argE (k * Moonphase.ck)
  have hEa : |E| ≤ 1.07 := by rw [abs_le]; constructor <;> norm_num at * <;> linarith
  have b1 := abs_le.1 (mul_bd (abs_cos_le_one (argM (k * Moonphase.ck))) hEa)
  have b2 := abs_le.1 (abs_cos_le_one (argM' (k * Moonphase.ck)))
  have b3 := abs_le.1 (abs_cos_le_one (2 * argM' (k * Moonphase.ck)))
  have b4 := abs_le.1 (abs_cos_le_one (argM (k * Moonphase.ck) + argM' (k * Moonphase.ck)))
  constructor <;> norm_num at * <;> linarith [b1.1, b1.2, b2.1, b2.2, b3.1, b3.2, b4.1, b4.2]

theorem g_true (k jm c1 c2 : ℝ) (h : ¬ |sin (argF (k * Moonphase.ck))| > 0.36) :
    (g k jm c1 c2).eclipse = true ∧ (g k jm c1 c2).γ = axis k ∧ (g k jm c1 c2).u = umbra k := by
  unfold g
  dsimp only
  rw [if_neg h]
  exact ⟨rfl, rfl, rfl⟩

theorem g_false (k jm c1 c2 : ℝ) (h : |sin (argF (k * Moonphase.ck))| > 0.36) : (g k jm c1 c2).eclipse = false := by
  unfold g
  dsimp only
  rw [if_pos h]

/-- C58.  The type of a lunar eclipse is the one of the geometry: the disc of the Moon inside the umbra, across its edge, in the penumbra, or outside; and without an eclipse
None (years −990 to 4990). -/
theorem C58_kind (year : ℝ) (hk : |Moonphase.snap year 0.5| ≤ 37000) :
    (Lunar year).kind = lunarKind (axis (Moonphase.snap year 0.5)) (0.7403 - umbra (Moonphase.snap year 0.5)) (1.2848 + umbra (Moonphase.snap year 0.5)) := by
  unfold Lunar
  set k := Moonphase.snap year 0.5
  obtain ⟨hu1, hu2⟩ := umbra_bd k hk
  by_cases hF : |sin (argF (k * Moonphase.ck))| > 0.36
  · have hfar := C94_no_eclipse_missed k hk hF
    unfold lunarOf
    rw [if_pos (g_false _ _ _ _ hF)]
    unfold lunarKind moonDisc
    rw [if_neg (by norm_num at *; linarith), if_neg (by norm_num at *; linarith), if_neg (by norm_num at *; linarith)]
  · obtain ⟨h1, h2, h3⟩ := g_true k (Moonphase.MeanFull year) (-0.4065) 0.1727 hF
    unfold lunarOf
    rw [if_neg (by rw [h1]; simp)]
    dsimp only
    rw [h2, h3]
    unfold lunarKind moonDisc
    by_cases c1 : (1.0128 - umbra k - |axis k|) / 0.545 > 1
    · rw [if_pos c1, if_pos]
      rw [gt_iff_lt, lt_div_iff₀ (by norm_num)] at c1
      norm_num at *; linarith
    have d1 : ¬ |axis k| + 0.2725 < 0.7403 - umbra k := by rw [gt_iff_lt, lt_div_iff₀ (by norm_num)] at c1; norm_num at *; linarith
    rw [if_neg c1, if_neg d1]
    by_cases c2 : (1.0128 - umbra k - |axis k|) / 0.545 > 0
    · rw [if_pos c2, if_pos]
      rw [gt_iff_lt, lt_div_iff₀ (by norm_num)] at c2
      norm_num at *; linarith
    have d2 : ¬ |axis k| < 0.7403 - umbra k + 0.2725 := by rw [gt_iff_lt, lt_div_iff₀ (by norm_num)] at c2; norm_num at *; linarith
    rw [if_neg c2, if_neg d2]
    by_cases c3 : (1.5573 + umbra k - |axis k|) / 0.545 < 0
    · rw [if_pos c3, if_neg]
      rw [div_lt_iff₀ (by norm_num)] at c3
      norm_num at *; linarith
    · rw [if_neg c3, if_pos]
      rw [div_lt_iff₀ (by norm_num)] at c3
      norm_num at *; linarith

/-- C58.  Numbers that go with the type: immersed fraction of the Moon, and semidurations, half the chord divided by the hourly motion, whose square roots have
positive arguments and which are ordered. -/
theorem C58_numbers (year : ℝ) (hk : |Moonphase.snap year 0.5| ≤ 37000) :
    let r := Lunar year
    let n := 0.5458 + 0.04 * cos (argM' (Moonphase.snap year 0.5 * Moonphase.ck))
    (r.kind = .Total → 1 < r.mag ∧ r.mag = immersed r.γ r.σ ∧ 0 < r.sdTotal ∧ r.sdTotal < r.sdPartial ∧ r.sdPartial < r.sdPenumbral ∧
      r.sdTotal = halfChord r.γ (r.σ - moonDisc) / n ∧ r.sdPartial = halfChord r.γ (r.σ + moonDisc) / n ∧
      r.sdPenumbral = halfChord r.γ (r.ρ + moonDisc) / n) ∧
    (r.kind = .Umbral → 0 < r.mag ∧ r.mag ≤ 1 ∧ r.mag = immersed r.γ r.σ ∧ r.sdTotal = 0 ∧ 0 < r.sdPartial ∧ r.sdPartial < r.sdPenumbral ∧
      r.sdPartial = halfChord r.γ (r.σ + moonDisc) / n ∧ r.sdPenumbral = halfChord r.γ (r.ρ + moonDisc) / n) ∧
    (r.kind = .Penumbral → 0 ≤ r.mag ∧ r.mag = immersed r.γ r.ρ ∧ r.sdTotal = 0 ∧ r.sdPartial = 0 ∧ 0 ≤ r.sdPenumbral ∧
      r.γ ^ 2 ≤ (r.ρ + moonDisc) ^ 2 ∧ r.sdPenumbral = halfChord r.γ (r.ρ + moonDisc) / n) ∧
    r.kind ≠ .Partial ∧ r.kind ≠ .Annular ∧ r.kind ≠ .AnnularTotal := by
  intro r n
  have hr : r = Lunar year := rfl
  clear_value r
  unfold Lunar at hr
  set k := Moonphase.snap year 0.5 with hkdef
  obtain ⟨hu1, hu2⟩ := umbra_bd k hk
  have hn : 0 < n := by
    have := abs_le.1 (abs_cos_le_one (argM' (k * Moonphase.ck)))
    show 0 < 0.5458 + 0.04 * cos (argM' (k * Moonphase.ck))
    norm_num at *; linarith [this.1]
  by_cases hF : |sin (argF (k * Moonphase.ck))| > 0.36
  · unfold lunarOf at hr
    rw [if_pos (g_false _ _ _ _ hF)] at hr
    subst hr
    simp
  obtain ⟨h1, h2, h3⟩ := g_true k (Moonphase.MeanFull year) (-0.4065) 0.1727 hF
  have h4 : (g k (Moonphase.MeanFull year) (-0.4065) 0.1727).M' = argM' (k * Moonphase.ck) := by
    unfold g; dsimp only; rw [if_neg hF]
  unfold lunarOf at hr
  rw [if_neg (by rw [h1]; simp)] at hr
  dsimp only at hr
  rw [h2, h3, h4] at hr
  have hnn : 0.5458 + 0.04 * cos (argM' (k * Moonphase.ck)) = n := rfl
  rw [hnn] at hr
  clear_value n
  set u := umbra k
  set γ := axis k
  have sq : γ * γ = |γ| ^ 2 := by rw [sq_abs]; ring
  have habs := abs_nonneg γ
  have root : ∀ x y : ℝ, |γ| < x → x < y → sqrt (x * x - γ * γ) / n < sqrt (y * y - γ * γ) / n := by
    intro x y hx hy
    apply div_lt_div_of_pos_right _ hn
    apply sqrt_lt_sqrt
    · rw [sq]; nlinarith
    · nlinarith
  have rootpos : ∀ x : ℝ, |γ| < x → 0 < sqrt (x * x - γ * γ) / n := by
    intro x hx
    apply div_pos _ hn
    apply sqrt_pos.2
    rw [sq]; nlinarith
  have ch : ∀ x y : ℝ, x = y → sqrt (x * x - γ * γ) / n = halfChord γ y / n := by
    intro x y h; unfold halfChord; rw [h, pow_two, pow_two]
  by_cases c1 : (1.0128 - u - |γ|) / 0.545 > 1
  · rw [if_pos c1] at hr
    have c1' := c1
    rw [gt_iff_lt, lt_div_iff₀ (by norm_num)] at c1'
    have t1 : |γ| < 0.4678 - u := by norm_num at *; linarith
    have t2 : 0.4678 - u < 1.0128 - u := by norm_num
    have t3 : 1.0128 - u < 1.5573 + u := by norm_num at *; linarith
    subst hr
    refine ⟨fun _ => ⟨c1, ?_, rootpos _ t1, root _ _ t1 t2, root _ _ (t1.trans t2) t3, ?_, ?_, ?_⟩, by simp, by simp, by simp, by simp, by simp⟩
    · unfold immersed moonDisc; dsimp only; congr 1 <;> norm_num; ring
    · exact ch _ _ (by unfold moonDisc; dsimp only; ring)
    · exact ch _ _ (by unfold moonDisc; dsimp only; ring)
    · exact ch _ _ (by unfold moonDisc; dsimp only; ring)
  rw [if_neg c1] at hr
  by_cases c2 : (1.0128 - u - |γ|) / 0.545 > 0
  · rw [if_pos c2] at hr
    have c2' := c2
    rw [gt_iff_lt, lt_div_iff₀ (by norm_num)] at c2'
    have t1 : |γ| < 1.0128 - u := by norm_num at *; linarith
    have t3 : 1.0128 - u < 1.5573 + u := by norm_num at *; linarith
    subst hr
    refine ⟨by simp, fun _ => ⟨c2, not_lt.1 c1, ?_, rfl, rootpos _ t1, root _ _ t1 t3, ?_, ?_⟩, by simp, by simp, by simp, by simp⟩
    · unfold immersed moonDisc; dsimp only; congr 1 <;> norm_num; ring
    · exact ch _ _ (by unfold moonDisc; dsimp only; ring)
    · exact ch _ _ (by unfold moonDisc; dsimp only; ring)
  rw [if_neg c2] at hr
  by_cases c3 : (1.5573 + u - |γ|) / 0.545 < 0
  · rw [if_pos c3] at hr
    subst hr
    simp
  · rw [if_neg c3] at hr
    have c3' := c3
    rw [div_lt_iff₀ (by norm_num)] at c3'
    have t1 : |γ| ≤ 1.5573 + u := by norm_num at *; linarith
    subst hr
    refine ⟨by simp, by simp, fun _ => ⟨not_lt.1 c3, ?_, rfl, rfl, by positivity, ?_, ?_⟩, by simp, by simp, by simp⟩
    · unfold immersed moonDisc; dsimp only; congr 1 <;> norm_num; ring
    · unfold moonDisc; dsimp only
      rw [show 1.2848 + u + 0.2725 = 1.5573 + u by ring, ← sq_abs γ]
      exact pow_le_pow_left₀ habs t1 2
    · exact ch _ _ (by unfold moonDisc; dsimp only; ring)

/-- C59.  The type of a solar eclipse is the one of the geometry (years −990 to 4990). -/
theorem C59_kind (year : ℝ) (hk : |Moonphase.snap year 0| ≤ 37000) :
    (Solar year).kind = solarKind (axis (Moonphase.snap year 0)) (umbra (Moonphase.snap year 0)) := by
  unfold Solar
  set k := Moonphase.snap year 0
  obtain ⟨hu1, hu2⟩ := umbra_bd k hk
  by_cases hF : |sin (argF (k * Moonphase.ck))| > 0.36
  · have hfar := C94_no_eclipse_missed k hk hF
    unfold solarOf
    dsimp only
    rw [if_pos (g_false _ _ _ _ hF)]
    unfold solarKind earthDisc
    rw [if_pos (by norm_num at *; linarith)]
  obtain ⟨h1, h2, h3⟩ := g_true k (Moonphase.MeanNew year) (-0.4075) 0.1721 hF
  unfold solarOf
  dsimp only
  rw [if_neg (by rw [h1]; simp), h2, h3]
  unfold solarKind earthDisc
  by_cases c0 : |axis k| > 1.5433 + umbra k
  · rw [if_pos c0, if_pos (by norm_num at *; linarith)]
  have d0 : ¬ |axis k| > 0.9972 + (umbra k + 0.5461) := by norm_num at *; linarith
  rw [if_neg c0, if_neg d0]
  dsimp only
  by_cases c1 : |axis k| < 0.9972
  · rw [if_neg (not_not.2 c1), if_pos c1]
    by_cases c2 : umbra k < 0
    · rw [if_pos c2, if_pos c2]
    rw [if_neg c2, if_neg c2, ← pow_two]
    by_cases c3 : umbra k > 0.0047
    · rw [if_pos c3, if_neg]
      have : sqrt (1 - axis k ^ 2) ≤ 1 := by
        rw [sqrt_le_one]; have := sq_nonneg (axis k); linarith
      clear * - this c3
      norm_num at c3 ⊢; linarith
    · rw [if_neg c3]
  · rw [if_pos c1, if_neg c1]
    by_cases c2 : |axis k| < 1.026
    · rw [if_pos c2]
      by_cases c3 : |axis k| < 0.9972 + |umbra k|
      · rw [if_pos c3, if_pos (lt_min c2 c3)]
      · rw [if_neg c3, if_neg (fun h => c3 (h.trans_le (min_le_right _ _)))]
    · rw [if_neg c2, if_neg (fun h => c2 (h.trans_le (min_le_left _ _)))]

/-- C59.  The other results: central exactly when the axis meets the Earth; the magnitude of a partial eclipse is in [0, 1] and is the fraction (earthDisc + p − |γ|)/(p + u);
the lunar types are never returned. -/
theorem C59_numbers (year : ℝ) (hk : |Moonphase.snap year 0| ≤ 37000) :
    let r := Solar year
    (r.central = true ↔ |axis (Moonphase.snap year 0)| < earthDisc) ∧
    (r.kind = .Partial → 0 ≤ r.mag ∧ r.mag ≤ 1 ∧ r.mag = (earthDisc + r.p - |r.γ|) / (r.p + r.u) ∧ 0 < r.p + r.u) ∧
    (r.kind ≠ .None → r.γ = axis (Moonphase.snap year 0) ∧ r.u = umbra (Moonphase.snap year 0)) ∧
    r.kind ≠ .Penumbral ∧ r.kind ≠ .Umbral := by
  intro r
  have hr : r = Solar year := rfl
  have hkind := C59_kind year hk
  rw [← hr] at hkind
  clear_value r
  unfold Solar at hr
  set k := Moonphase.snap year 0
  obtain ⟨hu1, hu2⟩ := umbra_bd k hk
  have hlast : r.kind ≠ .Penumbral ∧ r.kind ≠ .Umbral := by
    rw [hkind]; unfold solarKind; constructor <;> split_ifs <;> simp
  by_cases hF : |sin (argF (k * Moonphase.ck))| > 0.36
  · have hfar := C94_no_eclipse_missed k hk hF
    unfold solarOf at hr
    dsimp only at hr
    rw [if_pos (g_false _ _ _ _ hF)] at hr
    refine ⟨?_, ?_, ?_, hlast⟩ <;> subst hr
    · simp only [Bool.false_eq_true, false_iff, not_lt]; unfold earthDisc; norm_num at *; linarith
    · simp
    · simp
  obtain ⟨h1, h2, h3⟩ := g_true k (Moonphase.MeanNew year) (-0.4075) 0.1721 hF
  unfold solarOf at hr
  dsimp only at hr
  rw [if_neg (by rw [h1]; simp), h2, h3] at hr
  by_cases c0 : |axis k| > 1.5433 + umbra k
  · rw [if_pos c0] at hr
    refine ⟨?_, ?_, ?_, hlast⟩ <;> subst hr
    · simp only [Bool.false_eq_true, false_iff, not_lt]; unfold earthDisc; norm_num at *; linarith
    · simp
    · simp
  rw [if_neg c0] at hr
  refine ⟨?_, ?_, ?_, hlast⟩
  · subst hr; simp only [decide_eq_true_eq]; rfl
  · intro hp
    rw [hp] at hkind
    have hmag : r.mag = (1.5433 + umbra k - |axis k|) / (0.5461 + 2 * umbra k) := by
      have := hp
      rw [hr] at this ⊢
      dsimp only at this ⊢
      rw [if_pos this]
    have hγ : r.γ = axis k := by rw [hr]
    have hu : r.u = umbra k := by rw [hr]
    have hpp : r.p = umbra k + 0.5461 := by rw [hr]
    rw [hmag, hγ, hu, hpp]
    have hden : 0 < 0.5461 + 2 * umbra k := by norm_num at *; linarith
    have hnear : 0.9972 - umbra k ≤ |axis k| := by
      unfold solarKind earthDisc at hkind
      by_contra hcon
      rw [not_le] at hcon
      rw [if_neg (by norm_num at *; linarith)] at hkind
      by_cases c1 : |axis k| < 0.9972
      · rw [if_pos c1] at hkind
        split_ifs at hkind
      · rw [if_neg c1, if_pos] at hkind
        · cases hkind
        · have hneg : umbra k < 0 := by norm_num at *; linarith
          rw [abs_of_neg hneg]
          apply lt_min <;> norm_num at * <;> linarith
    refine ⟨div_nonneg (by linarith) hden.le, ?_, ?_, by linarith⟩
    · rw [div_le_one hden]; norm_num at *; linarith
    · unfold earthDisc; congr 1 <;> ring
  · intro _; subst hr; exact ⟨rfl, rfl⟩

/-- C58, C59.  The hypotheses are met: for the year 2000 the lunations are 1/2 and 0. -/
theorem C58_example : Moonphase.snap 2000 0.5 = 0.5 ∧ Moonphase.snap 2000 0 = 0 := by
  unfold Moonphase.snap; norm_num

end Verif.Props
