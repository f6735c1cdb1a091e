import Verif.Model.Planetary
import Verif.Lemmas.Series
import Verif.Props.Nutation
import Mathlib.Tactic

/-! Properties C122–C125: conjunctions, oppositions, elongations and stations of the planets; extreme declinations of the Moon. -/

namespace Verif.Props

open Verif.Go Real Verif.Model Verif.Model.Planetary Verif.Lemmas

/-! ### Bounds on the sums of the tables -/

theorem pair_bound (x a b A B r : ℝ) (ha : |a| ≤ A) (hb : |b| ≤ B) (hr : 0 ≤ r) (h : A ^ 2 + B ^ 2 ≤ r ^ 2) :
    |sin x * a + cos x * b| ≤ r := by
  apply abs_le_of_sq_le_sq _ hr
  have h1 : a ^ 2 ≤ A ^ 2 := by rw [← sq_abs a]; exact pow_le_pow_left₀ (abs_nonneg a) ha 2
  have h2 : b ^ 2 ≤ B ^ 2 := by rw [← sq_abs b]; exact pow_le_pow_left₀ (abs_nonneg b) hb 2
  nlinarith [sq_nonneg (cos x * a - sin x * b), sin_sq_add_cos_sq x]

/-- The rows are pairs (sine, cosine), and the amplitudes for |T| ≤ X are at most the given numbers. -/
def Dom (X : ℝ) : List (List ℝ) → List ℝ → Prop
  | [], [] => True
  | a :: b :: c, r :: rs => 0 ≤ r ∧ hornerR X (a.map abs) ^ 2 + hornerR X (b.map abs) ^ 2 ≤ r ^ 2 ∧ Dom X c rs
  | _, _ => False

theorem sumLoop_bound (T X M : ℝ) (hT : |T| ≤ X) : ∀ (c : List (List ℝ)) (rs : List ℝ) (mm j : ℝ), Dom X c rs →
    ∃ v, sumLoop T M mm c j = some v ∧ |v - j| ≤ rs.sum
  | [], [], mm, j, _ => ⟨j, by simp [sumLoop], by simp⟩
  | a :: b :: c, r :: rs, mm, j, h => by
    obtain ⟨h0, h1, h2⟩ := h
    obtain ⟨v, hv, hb⟩ := sumLoop_bound T X M hT c rs (mm + M) (j + sin (mm + M) * hornerR T a + cos (mm + M) * hornerR T b) h2
    refine ⟨v, hv, ?_⟩
    have := pair_bound (mm + M) (hornerR T a) (hornerR T b) _ _ r (abs_hornerR_le T X hT a) (abs_hornerR_le T X hT b) h0 h1
    rw [List.sum_cons]
    rw [abs_le] at *
    constructor <;> linarith [hb.1, hb.2, this.1, this.2]
  | [], _ :: _, _, _, h => by simp [Dom] at h
  | [_], _, _, _, h => by simp [Dom] at h
  | _ :: _ :: _, [], _, _, h => by simp [Dom] at h

theorem addLoop_bound (T X : ℝ) (hT : |T| ≤ X) : ∀ (aa : List (ℝ × ℝ)) (c : List (List ℝ)) (rs : List ℝ) (j : ℝ),
    aa.length = rs.length → Dom X c rs → ∃ v, addLoop T aa c j = some v ∧ |v - j| ≤ rs.sum
  | [], [], [], j, _, _ => ⟨j, by simp [addLoop], by simp⟩
  | (p, f) :: aa, a :: b :: c, r :: rs, j, hl, h => by
    obtain ⟨h0, h1, h2⟩ := h
    obtain ⟨v, hv, hb⟩ := addLoop_bound T X hT aa c rs
      (j + sin ((p + f * T) * π / 180) * hornerR T a + cos ((p + f * T) * π / 180) * hornerR T b) (by simpa using hl) h2
    refine ⟨v, hv, ?_⟩
    have := pair_bound ((p + f * T) * π / 180) (hornerR T a) (hornerR T b) _ _ r (abs_hornerR_le T X hT a) (abs_hornerR_le T X hT b) h0 h1
    rw [List.sum_cons]
    rw [abs_le] at *
    constructor <;> linarith [hb.1, hb.2, this.1, this.2]
  | [], _, _ :: _, _, hl, _ => by simp at hl
  | _ :: _, _, [], _, hl, _ => by simp at hl
  | _ :: _, [], _ :: _, _, _, h => by simp [Dom] at h
  | _ :: _, [_], _ :: _, _, _, h => by simp [Dom] at h
  | [], _ :: _, [], _, _, h => by
    rename_i l
    cases l <;> simp [Dom] at h

theorem head_bound (T X c0 : ℝ) (c : List ℝ) (hT : |T| ≤ X) : |hornerR T (c0 :: c) - c0| ≤ X * hornerR X (c.map abs) := by
  have h := abs_hornerR_le T X hT c
  have e : hornerR T (c0 :: c) - c0 = T * hornerR T c := by simp [hornerR]; ring
  rw [e, abs_mul]
  exact mul_le_mul hT h (abs_nonneg _) ((abs_nonneg T).trans hT)

theorem sum_bound (T X M c0 : ℝ) (h c : List _) (rs : List ℝ) (hT : |T| ≤ X) (hd : Dom X c rs) :
    ∃ v, Planetary.sum T M ((c0 :: h) :: c) = some v ∧ |v - c0| ≤ X * hornerR X (h.map abs) + rs.sum := by
  obtain ⟨v, hv, hb⟩ := sumLoop_bound T X M hT c rs 0 (hornerR T (c0 :: h)) hd
  refine ⟨v, hv, ?_⟩
  have h1 := head_bound T X c0 h hT
  rw [abs_le] at *
  constructor <;> linarith [hb.1, hb.2, h1.1, h1.2]

theorem sumA_bound (T X M c0 : ℝ) (h : List ℝ) (c c' : List (List ℝ)) (aa : List (ℝ × ℝ)) (rs rs' : List ℝ) (hT : |T| ≤ X) (hd : Dom X c rs)
    (hd' : Dom X c' rs') (hl : aa.length = rs'.length) (hl' : c'.length = 2 * aa.length) :
    ∃ v, sumA T M ((c0 :: h) :: (c ++ c')) aa = some v ∧ |v - c0| ≤ X * hornerR X (h.map abs) + rs.sum + rs'.sum := by
  obtain ⟨v, hv, hb⟩ := sum_bound T X M c0 h c rs hT hd
  obtain ⟨w, hw, hb'⟩ := addLoop_bound T X hT aa c' rs' v hl hd'
  refine ⟨w, ?_, ?_⟩
  · unfold sumA
    have e : ((c0 :: h) :: (c ++ c')).length - 2 * aa.length = c.length + 1 := by simp [hl']; omega
    rw [if_neg (by simp [hl']; omega)]
    simp only [e]
    rw [List.take_succ_cons, List.drop_succ_cons, List.take_left', List.drop_left', hv] <;> try rfl
    exact hw
  · rw [abs_le] at *
    constructor <;> linarith [hb.1, hb.2, hb'.1, hb'.2]

/-! ### Events counted by an integer -/

/-- The date of a decimal year: the scale of the year argument of package planetary. -/
noncomputable def dateOf (y : ℝ) : ℝ := 365.2425 * y + 1721060

/-- The integer of `mean`. -/
noncomputable def cycleOf (a : Ca) (y : ℝ) : ℤ := ⌊(dateOf y - a.A) / a.B + 0.5⌋

theorem cycleOf_near (a : Ca) (y : ℝ) (hB : 0 < a.B) : |a.A + cycleOf a y * a.B - dateOf y| ≤ a.B / 2 := by
  have h1 := Int.floor_le ((dateOf y - a.A) / a.B + 0.5)
  have h2 := Int.lt_floor_add_one ((dateOf y - a.A) / a.B + 0.5)
  unfold cycleOf
  generalize (⌊(dateOf y - a.A) / a.B + 0.5⌋ : ℝ) = k at *
  have e : (dateOf y - a.A) / a.B * a.B = dateOf y - a.A := div_mul_cancel₀ _ hB.ne'
  generalize (dateOf y - a.A) / a.B = q at *
  rw [abs_le]
  constructor <;> nlinarith

theorem cycleOf_nearest (a : Ca) (y : ℝ) (hB : 0 < a.B) (m : ℤ) :
    |a.A + cycleOf a y * a.B - dateOf y| ≤ |a.A + m * a.B - dateOf y| := by
  have h := cycleOf_near a y hB
  rcases eq_or_ne m (cycleOf a y) with rfl | hm
  · exact le_rfl
  · have h1 : (1 : ℝ) ≤ |(m : ℝ) - cycleOf a y| := by
      have : 1 ≤ |m - cycleOf a y| := Int.one_le_abs (sub_ne_zero.2 hm)
      exact_mod_cast this
    have h2 : a.B ≤ |((m : ℝ) - cycleOf a y) * a.B| := by
      rw [abs_mul, abs_of_pos hB]; nlinarith
    have h3 := abs_add_le (a.A + m * a.B - dateOf y) (-(a.A + cycleOf a y * a.B - dateOf y))
    rw [abs_neg, show a.A + m * a.B - dateOf y + -(a.A + cycleOf a y * a.B - dateOf y) = ((m : ℝ) - cycleOf a y) * a.B by ring] at h3
    linarith

theorem cycleOf_mono (a : Ca) (hB : 0 < a.B) {y y' : ℝ} (h : y ≤ y') : cycleOf a y ≤ cycleOf a y' := by
  unfold cycleOf
  apply Int.floor_le_floor
  have : dateOf y ≤ dateOf y' := by unfold dateOf; linarith
  have : (dateOf y - a.A) / a.B ≤ (dateOf y' - a.A) / a.B := by gcongr
  linarith

theorem cycleOf_eq (a : Ca) (hB : 0 < a.B) (k : ℤ) (y : ℝ) (h1 : a.A + k * a.B - a.B / 2 ≤ dateOf y) (h2 : dateOf y < a.A + k * a.B + a.B / 2) :
    cycleOf a y = k := by
  unfold cycleOf
  rw [Int.floor_eq_iff]
  have e : (dateOf y - a.A) / a.B * a.B = dateOf y - a.A := div_mul_cancel₀ _ hB.ne'
  generalize (dateOf y - a.A) / a.B = q at *
  constructor <;> nlinarith

/-- `F` gives, for the years 10 to 3990, events that come in the order of the years asked for, distinct ones at least `gap` days
apart, each at most `near` days from the date asked for, and no other event is nearer by more than `slack` days. -/
def Events (F : ℝ → Option ℝ) (gap near slack : ℝ) : Prop :=
  ∀ y y', 10 ≤ y → y ≤ y' → y' ≤ 3990 → ∃ v v', F y = some v ∧ F y' = some v' ∧ (v = v' ∨ v + gap ≤ v') ∧
    |v - dateOf y| ≤ near ∧ |v' - dateOf y'| ≤ near ∧ |v - dateOf y| ≤ |v' - dateOf y| + slack ∧ |v' - dateOf y'| ≤ |v - dateOf y'| + slack

/-- `F` runs through events `G k` that differ from the mean ones by c ± amp days. -/
def Runs (F : ℝ → Option ℝ) (a : Ca) (c amp : ℝ) : Prop :=
  ∃ G : ℤ → Option ℝ, (∀ y, F y = G (cycleOf a y)) ∧ ∀ k : ℤ, |a.A + k * a.B - 2451545| ≤ 730500 → ∃ v, G k = some v ∧ |v - (a.A + k * a.B) - c| ≤ amp

theorem runs_range (a : Ca) (hB : 0 < a.B) (hB' : a.B ≤ 800) (y : ℝ) (h1 : 10 ≤ y) (h2 : y ≤ 3990) :
    |a.A + cycleOf a y * a.B - 2451545| ≤ 730500 := by
  have h := abs_le.mp (cycleOf_near a y hB)
  unfold dateOf at h
  rw [abs_le]
  constructor <;> linarith [h.1, h.2]

theorem runs_events {F : ℝ → Option ℝ} {a : Ca} {c amp : ℝ} (h : Runs F a c amp) (hB : 0 < a.B) (hB' : a.B ≤ 800) (gap near slack : ℝ)
    (h1 : gap ≤ a.B - 2 * amp) (h2 : a.B / 2 + |c| + amp ≤ near) (h3 : 2 * (|c| + amp) ≤ slack) (hg : 2 * amp ≤ a.B) : Events F gap near slack := by
  intro y y' ha hy hb
  obtain ⟨G, hF, hG⟩ := h
  obtain ⟨v, hv, bv⟩ := hG _ (runs_range a hB hB' y ha (by linarith))
  obtain ⟨v', hv', bv'⟩ := hG _ (runs_range a hB hB' y' (by linarith) hb)
  have n1 := cycleOf_nearest a y hB (cycleOf a y')
  have n2 := cycleOf_nearest a y' hB (cycleOf a y)
  have m1 := cycleOf_near a y hB
  have m2 := cycleOf_near a y' hB
  have key : ∀ J v D : ℝ, |v - J - c| ≤ amp → |v - D| ≤ |J - D| + (|c| + amp) ∧ |J - D| ≤ |v - D| + (|c| + amp) := by
    intro J v D hv
    have e1 : v - D = (v - J - c) + (J - D) + c := by ring
    have e2 : J - D = (v - D) + -(v - J - c) + -c := by ring
    constructor
    · rw [e1]
      have := abs_add_three (v - J - c) (J - D) c
      linarith
    · have := abs_add_three (v - D) (-(v - J - c)) (-c)
      rw [← e2, abs_neg, abs_neg] at this
      linarith
  refine ⟨v, v', by rw [hF, hv], by rw [hF, hv'], ?_, ?_, ?_, ?_, ?_⟩
  · rcases eq_or_lt_of_le (cycleOf_mono a hB hy) with he | hlt
    · left
      rw [he, hv', Option.some.injEq] at hv
      exact hv.symm
    · right
      have hk : (cycleOf a y : ℝ) + 1 ≤ cycleOf a y' := by exact_mod_cast hlt
      have q1 := abs_le.mp bv
      have q2 := abs_le.mp bv'
      nlinarith [q1.1, q1.2, q2.1, q2.2]
  · have := (key _ _ (dateOf y) bv).1
    linarith
  · have := (key _ _ (dateOf y') bv').1
    linarith
  · have := (key _ _ (dateOf y) bv).1
    have := (key _ _ (dateOf y) bv').2
    linarith
  · have := (key _ _ (dateOf y') bv').1
    have := (key _ _ (dateOf y') bv).2
    linarith

theorem mean_eq (a : Ca) (y : ℝ) : mean y a =
    (a.A + cycleOf a y * a.B, pmod (a.M0 + cycleOf a y * a.M1) 360 * π / 180, J2000Century (a.A + cycleOf a y * a.B)) := rfl

/-- The anomaly for the integer k. -/
noncomputable def anomalyAt (a : Ca) (k : ℤ) : ℝ := pmod (a.M0 + k * a.M1) 360 * π / 180

/-- The time in centuries for the integer k. -/
noncomputable def centuryAt (a : Ca) (k : ℤ) : ℝ := J2000Century (a.A + k * a.B)

theorem centuryAt_le (a : Ca) (k : ℤ) (h : |a.A + k * a.B - 2451545| ≤ 730500) : |centuryAt a k| ≤ 20 := by
  unfold centuryAt J2000Century
  rw [abs_div, abs_of_pos (by norm_num : (0 : ℝ) < 36525), div_le_iff₀ (by norm_num)]
  norm_num at *
  linarith

theorem runs_ms (F : ℝ → Option ℝ) (a : Ca) (c0 amp : ℝ) (h : List ℝ) (c : List (List ℝ)) (rs : List ℝ) (hF : ∀ y, F y = ms y a ((c0 :: h) :: c))
    (hd : Dom 20 c rs) (ha : 20 * hornerR 20 (h.map abs) + rs.sum ≤ amp) :
    Runs F a c0 amp := by
  refine ⟨fun k => (Planetary.sum (centuryAt a k) (anomalyAt a k) ((c0 :: h) :: c)).map (a.A + k * a.B + ·), fun y => by rw [hF, ms, mean_eq]; rfl, fun k hk => ?_⟩
  obtain ⟨v, hv, hb⟩ := sum_bound (centuryAt a k) 20 (anomalyAt a k) c0 h c rs (centuryAt_le a k hk) hd
  refine ⟨a.A + k * a.B + v, by simp only [hv, Option.map_some], ?_⟩
  rw [add_sub_cancel_left]
  exact hb.trans ha

theorem runs_msa (F : ℝ → Option ℝ) (a : Ca) (c0 amp : ℝ) (h : List ℝ) (c c' : List (List ℝ)) (aa : List (ℝ × ℝ)) (rs rs' : List ℝ)
    (hF : ∀ y, F y = msa y a ((c0 :: h) :: (c ++ c')) aa) (hd : Dom 20 c rs) (hd' : Dom 20 c' rs') (hl : aa.length = rs'.length)
    (hl' : c'.length = 2 * aa.length) (ha : 20 * hornerR 20 (h.map abs) + rs.sum + rs'.sum ≤ amp) :
    Runs F a c0 amp := by
  refine ⟨fun k => (sumA (centuryAt a k) (anomalyAt a k) ((c0 :: h) :: (c ++ c')) aa).map (a.A + k * a.B + ·), fun y => by rw [hF, msa, mean_eq]; rfl, fun k hk => ?_⟩
  obtain ⟨v, hv, hb⟩ := sumA_bound (centuryAt a k) 20 (anomalyAt a k) c0 h c c' aa rs rs' (centuryAt_le a k hk) hd hd' hl hl'
  refine ⟨a.A + k * a.B + v, by simp only [hv, Option.map_some], ?_⟩
  rw [add_sub_cancel_left]
  exact hb.trans ha

macro "dom" : tactic => `(tactic| (simp only [Dom, hornerR, List.map_cons, List.map_nil, List.foldr_cons, List.foldr_nil]; norm_num [abs_of_neg, abs_of_pos]))
macro "domsum" : tactic => `(tactic| (simp only [hornerR, List.map_cons, List.map_nil, List.foldr_cons, List.foldr_nil, List.sum_cons, List.sum_nil]; norm_num [abs_of_neg, abs_of_pos]))

/-! ### C122 -/

theorem runs_micB : Runs MercuryInfConj micA 0.0545 8.657 :=
  runs_ms _ micA _ _ _ _ [7.346, 1.06, 0.186, 0.049, 0.012] (fun _ => rfl) (by dom) (by domsum)
theorem runs_mscB : Runs MercurySupConj mscA (-0.0548) 10.292 :=
  runs_ms _ mscA _ _ _ _ [8.419, 1.435, 0.316, 0.091, 0.027] (fun _ => rfl) (by dom) (by domsum)
theorem runs_vicB : Runs VenusInfConj vicA (-0.0096) 2.433 :=
  runs_ms _ vicA _ _ _ _ [2.224, 0.187, 0.014] (fun _ => rfl) (by dom) (by domsum)
theorem runs_moB : Runs MarsOpp moA (-0.3088) 33.18 :=
  runs_ms _ moA _ _ _ _ [26.674, 4.611, 1.349, 0.388, 0.15] (fun _ => rfl) (by dom) (by domsum)
theorem runs_joB : Runs JupiterOpp joA (-0.1029) 7.857 :=
  runs_msa _ joA _ _ _ (joB.tail.take 6) (joB.drop 7) jaa [6.926, 0.269, 0.016] [0.61] (fun _ => rfl)
    (by simp only [joB, List.tail_cons, List.take_succ_cons, List.take_zero]; dom) (by simp only [joB, List.drop_succ_cons, List.drop_zero]; dom) rfl rfl (by domsum)
theorem runs_soB : Runs SaturnOpp soA (-0.0209) 7.898 :=
  runs_msa _ soA _ _ _ (soB.tail.take 6) (soB.drop 7) saa [5.601, 0.19, 0.011] [1.423, 0.329, 0.138, 0.102] (fun _ => rfl)
    (by simp only [soB, List.tail_cons, List.take_succ_cons, List.take_zero]; dom) (by simp only [soB, List.drop_succ_cons, List.drop_zero]; dom) rfl rfl (by domsum)
theorem runs_scB : Runs SaturnConj scA 0.0172 12.261 :=
  runs_msa _ scA _ _ _ (scB.tail.take 6) (scB.drop 7) saa [9.678, 0.458, 0.029] [1.423, 0.329, 0.138, 0.102] (fun _ => rfl)
    (by simp only [scB, List.tail_cons, List.take_succ_cons, List.take_zero]; dom) (by simp only [scB, List.drop_succ_cons, List.drop_zero]; dom) rfl rfl (by domsum)
theorem runs_uoB : Runs UranusOpp uoA 0.0844 6.654 :=
  runs_msa _ uoA _ _ _ (uoB.tail.take 6) (uoB.drop 7) uaa [5.376, 0.159, 0.006] [0.885, 0.216] (fun _ => rfl)
    (by simp only [uoB, List.tail_cons, List.take_succ_cons, List.take_zero]; dom) (by simp only [uoB, List.drop_succ_cons, List.drop_zero]; dom) rfl rfl (by domsum)
theorem runs_noB : Runs NeptuneOpp noA (-0.014) 2.354 :=
  runs_msa _ noA _ _ _ (noB.tail.take 4) (noB.drop 5) naa [1.661, 0.019] [0.597, 0.073] (fun _ => rfl)
    (by simp only [noB, List.tail_cons, List.take_succ_cons, List.take_zero]; dom) (by simp only [noB, List.drop_succ_cons, List.drop_zero]; dom) rfl rfl (by domsum)
theorem runs_ms2 : Runs MarsStation2 moA 36.7191 31.401 :=
  runs_ms _ moA _ _ _ _ [24.86, 4.555, 1.303, 0.473, 0.166] (fun _ => rfl) (by dom) (by domsum)

theorem el_fst (y : ℝ) (a : Ca) (t e : List (List ℝ)) (he : ∀ T M, ∃ d, Planetary.sum T M e = some d) : (el y a t e).map (·.1) = ms y micA t := by
  unfold el ms
  rw [mean_eq]
  simp only
  obtain ⟨d, hd⟩ := he (J2000Century (micA.A + cycleOf micA y * micA.B)) (pmod (micA.M0 + cycleOf micA y * micA.M1) 360 * π / 180)
  rw [hd]
  cases Planetary.sum (J2000Century (micA.A + cycleOf micA y * micA.B)) (pmod (micA.M0 + cycleOf micA y * micA.M1) 360 * π / 180) t <;> rfl

theorem runs_met : Runs (fun y => (MercuryEastElongation y).map (·.1)) micA (-21.6106) 3.461 :=
  runs_ms _ micA _ _ _ _ [2.622, 0.673, 0.125, 0.028, 0.009] (fun y => el_fst y micA met mee fun _ _ => ⟨_, rfl⟩) (by dom) (by domsum)
theorem runs_mwt : Runs (fun y => (MercuryWestElongation y).map (·.1)) micA 21.6249 3.624 :=
  runs_ms _ micA _ _ _ _ [2.805, 0.69, 0.11, 0.01, 0.005] (fun y => el_fst y micA mwt mwe fun _ _ => ⟨_, rfl⟩) (by dom) (by domsum)

/-- C122.  Conjunctions and oppositions. -/
theorem C122_events :
    Events MercuryInfConj 98 67 18 ∧ Events MercurySupConj 95 69 21 ∧ Events VenusInfConj 579 295 5 ∧ Events MarsOpp 713 424 67 ∧
    Events JupiterOpp 383 208 16 ∧ Events SaturnOpp 362 197 16 ∧ Events SaturnConj 353 202 25 ∧ Events UranusOpp 356 192 14 ∧
    Events NeptuneOpp 362 187 5 := by
  refine ⟨runs_events runs_micB ?_ ?_ _ _ _ ?_ ?_ ?_ ?_, runs_events runs_mscB ?_ ?_ _ _ _ ?_ ?_ ?_ ?_,
    runs_events runs_vicB ?_ ?_ _ _ _ ?_ ?_ ?_ ?_, runs_events runs_moB ?_ ?_ _ _ _ ?_ ?_ ?_ ?_, runs_events runs_joB ?_ ?_ _ _ _ ?_ ?_ ?_ ?_,
    runs_events runs_soB ?_ ?_ _ _ _ ?_ ?_ ?_ ?_, runs_events runs_scB ?_ ?_ _ _ _ ?_ ?_ ?_ ?_, runs_events runs_uoB ?_ ?_ _ _ _ ?_ ?_ ?_ ?_,
    runs_events runs_noB ?_ ?_ _ _ _ ?_ ?_ ?_ ?_⟩ <;> norm_num [micA, mscA, vicA, moA, joA, soA, scA, uoA, noA, abs_of_neg, abs_of_pos]

/-- C122.  Elongations of Mercury and stations of Mars. -/
theorem C122_elongations_stations :
    Events (fun y => (MercuryEastElongation y).map (·.1)) 108 84 51 ∧ Events (fun y => (MercuryWestElongation y).map (·.1)) 108 84 51 ∧
    Events MarsStation2 717 459 137 := by
  refine ⟨runs_events runs_met ?_ ?_ _ _ _ ?_ ?_ ?_ ?_, runs_events runs_mwt ?_ ?_ _ _ _ ?_ ?_ ?_ ?_, runs_events runs_ms2 ?_ ?_ _ _ _ ?_ ?_ ?_ ?_⟩ <;>
    norm_num [micA, moA, abs_of_neg, abs_of_pos]

/-! ### C123: the nearest event -/

theorem dateOf_inv (D : ℝ) : dateOf ((D - 1721060) / 365.2425) = D := by
  unfold dateOf
  rw [mul_div_cancel₀]
  · ring
  · norm_num

/-- Events that come later than the mean ones: every year or so (period B) there is a date for which the event before the one
returned is nearer. -/
theorem not_nearest_late {F : ℝ → Option ℝ} {a : Ca} {c amp : ℝ} (h : Runs F a c amp) (hB : 0 < a.B) (hB' : a.B ≤ 800) (g : ℝ)
    (hg : g + 4 + 2 * amp ≤ 2 * c) (hc : c + amp ≤ a.B / 2 - 1) (hg0 : 0 ≤ g) (hamp : 0 ≤ amp) (y0 : ℝ) (h1 : 20 ≤ y0) (h2 : y0 ≤ 3980) :
    ∃ y y' v v', |dateOf y - dateOf y0| ≤ a.B ∧ F y = some v ∧ F y' = some v' ∧ |v' - dateOf y| + g ≤ |v - dateOf y| := by
  obtain ⟨G, hF, hG⟩ := h
  obtain ⟨k, hk⟩ : ∃ k, k = cycleOf a y0 := ⟨_, rfl⟩
  have hn := abs_le.mp (cycleOf_near a y0 hB)
  rw [← hk] at hn
  have hD : dateOf y0 - 2451545 ≤ 730500 - 3000 ∧ -(730500 - 3000) ≤ dateOf y0 - 2451545 := by unfold dateOf; constructor <;> linarith
  obtain ⟨y, hy⟩ : ∃ y, dateOf y = a.A + k * a.B - a.B / 2 + 1 := ⟨_, dateOf_inv _⟩
  obtain ⟨y', hy'⟩ : ∃ y, dateOf y = a.A + (k - 1 : ℤ) * a.B := ⟨_, dateOf_inv _⟩
  have c1 : cycleOf a y = k := cycleOf_eq a hB k y (by linarith) (by linarith)
  have c2 : cycleOf a y' = k - 1 := cycleOf_eq a hB (k - 1) y' (by linarith) (by linarith)
  obtain ⟨v, hv, bv⟩ := hG k (by rw [abs_le]; constructor <;> linarith [hn.1, hn.2, hD.1, hD.2])
  obtain ⟨v', hv', bv'⟩ := hG (k - 1) (by push_cast; rw [abs_le]; constructor <;> linarith [hn.1, hn.2, hD.1, hD.2])
  refine ⟨y, y', v, v', ?_, by rw [hF, c1, hv], by rw [hF, c2, hv'], ?_⟩
  · rw [abs_le, hy]; constructor <;> linarith [hn.1, hn.2]
  · rw [hy]
    push_cast at bv'
    rw [abs_le] at bv bv'
    rw [abs_of_nonneg (by linarith [bv.1] : 0 ≤ v - (a.A + k * a.B - a.B / 2 + 1)),
      abs_of_nonpos (by linarith [bv'.2] : v' - (a.A + k * a.B - a.B / 2 + 1) ≤ 0)]
    linarith [bv.1, bv'.1]

/-- The same for events that come before the mean ones. -/
theorem not_nearest_early {F : ℝ → Option ℝ} {a : Ca} {c amp : ℝ} (h : Runs F a c amp) (hB : 0 < a.B) (hB' : a.B ≤ 800) (g : ℝ)
    (hg : g + 4 + 2 * amp ≤ -2 * c) (hc : -c + amp ≤ a.B / 2 - 1) (hg0 : 0 ≤ g) (hamp : 0 ≤ amp) (y0 : ℝ) (h1 : 20 ≤ y0) (h2 : y0 ≤ 3980) :
    ∃ y y' v v', |dateOf y - dateOf y0| ≤ a.B ∧ F y = some v ∧ F y' = some v' ∧ |v' - dateOf y| + g ≤ |v - dateOf y| := by
  obtain ⟨G, hF, hG⟩ := h
  obtain ⟨k, hk⟩ : ∃ k, k = cycleOf a y0 := ⟨_, rfl⟩
  have hn := abs_le.mp (cycleOf_near a y0 hB)
  rw [← hk] at hn
  have hD : dateOf y0 - 2451545 ≤ 730500 - 3000 ∧ -(730500 - 3000) ≤ dateOf y0 - 2451545 := by unfold dateOf; constructor <;> linarith
  obtain ⟨y, hy⟩ : ∃ y, dateOf y = a.A + k * a.B + a.B / 2 - 1 := ⟨_, dateOf_inv _⟩
  obtain ⟨y', hy'⟩ : ∃ y, dateOf y = a.A + (k + 1 : ℤ) * a.B := ⟨_, dateOf_inv _⟩
  have c1 : cycleOf a y = k := cycleOf_eq a hB k y (by linarith) (by linarith)
  have c2 : cycleOf a y' = k + 1 := cycleOf_eq a hB (k + 1) y' (by linarith) (by linarith)
  obtain ⟨v, hv, bv⟩ := hG k (by rw [abs_le]; constructor <;> linarith [hn.1, hn.2, hD.1, hD.2])
  obtain ⟨v', hv', bv'⟩ := hG (k + 1) (by push_cast; rw [abs_le]; constructor <;> linarith [hn.1, hn.2, hD.1, hD.2])
  refine ⟨y, y', v, v', ?_, by rw [hF, c1, hv], by rw [hF, c2, hv'], ?_⟩
  · rw [abs_le, hy]; constructor <;> linarith [hn.1, hn.2]
  · rw [hy]
    push_cast at bv'
    rw [abs_le] at bv bv'
    rw [abs_of_nonpos (by linarith [bv.2] : v - (a.A + k * a.B + a.B / 2 - 1) ≤ 0),
      abs_of_nonneg (by linarith [bv'.1] : 0 ≤ v' - (a.A + k * a.B + a.B / 2 - 1))]
    linarith [bv.2, bv'.2]

/-- C123.  "The event nearest the given time" is false for the elongations of Mercury and the station of Mars, in every synodic
period: there is a date for which another event the function knows is nearer, by 32 days for Mercury. -/
theorem C123_nearest_violation (y0 : ℝ) (h1 : 20 ≤ y0) (h2 : y0 ≤ 3980) :
    (∃ y y' v v', |dateOf y - dateOf y0| ≤ 116 ∧ (MercuryEastElongation y).map (·.1) = some v ∧
      (MercuryEastElongation y').map (·.1) = some v' ∧ |v' - dateOf y| + 32 ≤ |v - dateOf y|) ∧
    (∃ y y' v v', |dateOf y - dateOf y0| ≤ 116 ∧ (MercuryWestElongation y).map (·.1) = some v ∧
      (MercuryWestElongation y').map (·.1) = some v' ∧ |v' - dateOf y| + 32 ≤ |v - dateOf y|) ∧
    (∃ y y' v v', |dateOf y - dateOf y0| ≤ 780 ∧ MarsStation2 y = some v ∧ MarsStation2 y' = some v' ∧
      |v' - dateOf y| + 6 ≤ |v - dateOf y|) := by
  refine ⟨?_, ?_, ?_⟩
  · obtain ⟨y, y', v, v', a, b, c, d⟩ := not_nearest_early runs_met (by norm_num [micA]) (by norm_num [micA]) 32 (by norm_num) (by norm_num [micA])
      (by norm_num) (by norm_num) y0 h1 h2
    exact ⟨y, y', v, v', a.trans (by norm_num [micA]), b, c, d⟩
  · obtain ⟨y, y', v, v', a, b, c, d⟩ := not_nearest_late runs_mwt (by norm_num [micA]) (by norm_num [micA]) 32 (by norm_num) (by norm_num [micA])
      (by norm_num) (by norm_num) y0 h1 h2
    exact ⟨y, y', v, v', a.trans (by norm_num [micA]), b, c, d⟩
  · obtain ⟨y, y', v, v', a, b, c, d⟩ := not_nearest_late runs_ms2 (by norm_num [moA]) (by norm_num [moA]) 6 (by norm_num) (by norm_num [moA])
      (by norm_num) (by norm_num) y0 h1 h2
    exact ⟨y, y', v, v', a.trans (by norm_num [moA]), b, c, d⟩

/-! ### C124: order of the phenomena of a cycle -/

/-- Difference of two rows of coefficients. -/
def subRow : List ℝ → List ℝ → List ℝ
  | a :: as, b :: bs => (a - b) :: subRow as bs
  | as, [] => as
  | [], bs => bs.map (fun x => -x)

theorem hornerR_neg (T : ℝ) (b : List ℝ) : hornerR T (b.map fun x => -x) = -hornerR T b := by
  induction b with
  | nil => simp [hornerR]
  | cons x b ih =>
    have e : ∀ (x : ℝ) l, hornerR T (x :: l) = hornerR T l * T + x := fun _ _ => rfl
    rw [List.map_cons, e, e, ih]
    ring

theorem hornerR_sub (T : ℝ) : ∀ a b : List ℝ, hornerR T (subRow a b) = hornerR T a - hornerR T b
  | a :: as, b :: bs => by
    have e : ∀ (x : ℝ) l, hornerR T (x :: l) = hornerR T l * T + x := fun _ _ => rfl
    rw [subRow, e, e, e, hornerR_sub T as bs]
    ring
  | as, [] => by cases as <;> simp [subRow, hornerR]
  | [], b :: bs => by
    rw [subRow, hornerR_neg]
    · simp [hornerR]
    · simp

theorem sumLoop_diff (T X M : ℝ) (hT : |T| ≤ X) : ∀ (c c' : List (List ℝ)) (rs : List ℝ) (mm j j' : ℝ), c.length = c'.length →
    Dom X (List.zipWith subRow c c') rs →
    ∃ v v', sumLoop T M mm c j = some v ∧ sumLoop T M mm c' j' = some v' ∧ |v - v' - (j - j')| ≤ rs.sum
  | [], [], [], mm, j, j', _, _ => ⟨j, j', by simp [sumLoop], by simp [sumLoop], by simp⟩
  | a :: b :: c, a' :: b' :: c', r :: rs, mm, j, j', hl, h => by
    obtain ⟨h0, h1, h2⟩ := h
    obtain ⟨v, v', hv, hv', hb⟩ := sumLoop_diff T X M hT c c' rs (mm + M) (j + sin (mm + M) * hornerR T a + cos (mm + M) * hornerR T b)
      (j' + sin (mm + M) * hornerR T a' + cos (mm + M) * hornerR T b') (by simpa using hl) h2
    refine ⟨v, v', hv, hv', ?_⟩
    have := pair_bound (mm + M) (hornerR T (subRow a a')) (hornerR T (subRow b b')) _ _ r (abs_hornerR_le T X hT _) (abs_hornerR_le T X hT _) h0 h1
    rw [hornerR_sub, hornerR_sub] at this
    rw [List.sum_cons]
    rw [abs_le] at *
    constructor <;> linarith [hb.1, hb.2, this.1, this.2]
  | [], [], _ :: _, _, _, _, _, h => by simp [Dom] at h
  | [], _ :: _, _, _, _, _, hl, _ => by simp at hl
  | _ :: _, [], _, _, _, _, hl, _ => by simp at hl
  | [_], [_], _, _, _, _, _, h => by simp [Dom] at h
  | [_], _ :: _ :: _, _, _, _, _, hl, _ => by simp at hl
  | _ :: _ :: _, [_], _, _, _, _, hl, _ => by simp at hl
  | _ :: _ :: _, _ :: _ :: _, [], _, _, _, _, h => by simp [Dom] at h

theorem ms_diff (a : Ca) (hB : 0 < a.B) (hB' : a.B ≤ 800) (y c0 amp : ℝ) (h h' hd : List ℝ) (c c' : List (List ℝ)) (rs : List ℝ) (hy : 10 ≤ y) (hy' : y ≤ 3990)
    (hl : c.length = c'.length) (hs : subRow h h' = c0 :: hd) (hD : Dom 20 (List.zipWith subRow c c') rs) (ha : 20 * hornerR 20 (hd.map abs) + rs.sum ≤ amp) :
    ∃ v v', ms y a (h :: c) = some v ∧ ms y a (h' :: c') = some v' ∧ |v - v' - c0| ≤ amp := by
  have hT := centuryAt_le a _ (runs_range a hB hB' y hy hy')
  obtain ⟨v, v', hv, hv', hb⟩ := sumLoop_diff (centuryAt a (cycleOf a y)) 20 (anomalyAt a (cycleOf a y)) hT c c' rs 0
    (hornerR (centuryAt a (cycleOf a y)) h) (hornerR (centuryAt a (cycleOf a y)) h') hl hD
  rw [← hornerR_sub, hs] at hb
  have h1 := head_bound _ 20 c0 hd hT
  refine ⟨a.A + cycleOf a y * a.B + v, a.A + cycleOf a y * a.B + v', ?_, ?_, ?_⟩
  · rw [ms, mean_eq]
    exact congrArg (Option.map _) hv
  · rw [ms, mean_eq]
    exact congrArg (Option.map _) hv'
  · rw [abs_le] at *
    constructor <;> linarith [hb.1, hb.2, h1.1, h1.2]

macro "subdom" : tactic => `(tactic| (simp only [List.tail, List.zipWith, subRow, List.map_cons, List.map_nil]; dom))

/-- C124.  Mercury is at its greatest eastern elongation, then in inferior conjunction, then at its greatest western elongation,
each 14 to 30 days after the other; and the station of Mars is 28 to 46 days after the opposition. -/
theorem C124_order (y : ℝ) (h1 : 10 ≤ y) (h2 : y ≤ 3990) :
    ∃ e i w o s, (MercuryEastElongation y).map (·.1) = some e ∧ MercuryInfConj y = some i ∧ (MercuryWestElongation y).map (·.1) = some w ∧
      MarsOpp y = some o ∧ MarsStation2 y = some s ∧ e + 14 ≤ i ∧ i ≤ e + 30 ∧ i + 14 ≤ w ∧ w ≤ i + 29 ∧ o + 28 ≤ s ∧ s ≤ o + 46 := by
  obtain ⟨i, e, hi, he, hb⟩ := ms_diff micA (by norm_num [micA]) (by norm_num [micA]) y 21.6651 7.6 micB.head! met.head! [0] micB.tail met.tail
    [6.69, 0.57, 0.26, 0.06, 0.02] h1 h2 rfl (by norm_num [micB, met, subRow]) (by unfold micB met; subdom) (by domsum)
  obtain ⟨w, i', hw, hi', hb'⟩ := ms_diff micA (by norm_num [micA]) (by norm_num [micA]) y 21.5704 7.13 mwt.head! micB.head! [-0.0004] mwt.tail micB.tail
    [6.43, 0.39, 0.23, 0.05, 0.02] h1 h2 rfl (by norm_num [micB, mwt, subRow]) (by unfold micB mwt; subdom) (by domsum)
  obtain ⟨s, o, hs, ho, hb''⟩ := ms_diff moA (by norm_num [moA]) (by norm_num [moA]) y 37.0279 8.19 ms2.head! moB.head! [0.0016, 0.00001] ms2.tail moB.tail
    [5.58, 1.59, 0.62, 0.25, 0.112] h1 h2 rfl (by norm_num [ms2, moB, subRow]) (by unfold ms2 moB; subdom) (by domsum)
  have hii : i' = i := by
    have : some i' = some i := hi'.symm.trans hi
    simpa using this
  subst hii
  refine ⟨e, i', w, o, s, ?_, hi, ?_, ho, hs, ?_⟩
  · rw [← he]; exact el_fst y micA met mee fun _ _ => ⟨_, rfl⟩
  · rw [← hw]; exact el_fst y micA mwt mwe fun _ _ => ⟨_, rfl⟩
  · rw [abs_le] at hb hb' hb''
    refine ⟨?_, ?_, ?_, ?_, ?_, ?_⟩ <;> linarith [hb.1, hb.2, hb'.1, hb'.2, hb''.1, hb''.2]

/-- C124.  The elongations are between 17.1 and 27.9 degrees (east), 16.6 and 28.2 degrees (west). -/
theorem C124_elongation (y : ℝ) (h1 : 10 ≤ y) (h2 : y ≤ 3990) :
    ∃ e w, (MercuryEastElongation y).map (·.2) = some e ∧ (MercuryWestElongation y).map (·.2) = some w ∧
      17.1 * deg ≤ e ∧ e ≤ 27.9 * deg ∧ 16.6 * deg ≤ w ∧ w ≤ 28.2 * deg := by
  have hT := centuryAt_le micA _ (runs_range micA (by norm_num [micA]) (by norm_num [micA]) y h1 h2)
  obtain ⟨e, he, be⟩ := sum_bound _ 20 (anomalyAt micA (cycleOf micA y)) 22.4697 [] mee.tail [4.872, 0.399, 0.061, 0.014, 0.003] hT (by unfold mee; simp only [List.tail]; dom)
  obtain ⟨w, hw, bw⟩ := sum_bound _ 20 (anomalyAt micA (cycleOf micA y)) 22.4143 [-0.0001] mwe.tail [5.183, 0.513, 0.04, 0.011, 0.002] hT (by unfold mwe; simp only [List.tail]; dom)
  have f : ∀ t d s : List (List ℝ), ∀ z, (∀ T M, ∃ u, Planetary.sum T M t = some u) →
      Planetary.sum (centuryAt micA (cycleOf micA y)) (anomalyAt micA (cycleOf micA y)) d = some z → (el y micA t d).map (·.2) = some (z * π / 180) := by
    intro t d s z ht hz
    unfold el
    rw [mean_eq]
    obtain ⟨u, hu⟩ := ht (centuryAt micA (cycleOf micA y)) (anomalyAt micA (cycleOf micA y))
    unfold centuryAt anomalyAt at hu hz
    simp only [hu, hz, Option.map_some]
  refine ⟨e * π / 180, w * π / 180, f met mee [] e (fun _ _ => ⟨_, rfl⟩) he, f mwt mwe [] w (fun _ _ => ⟨_, rfl⟩) hw, ?_⟩
  have hp := pi_pos
  norm_num [hornerR, abs_of_neg] at be bw
  rw [abs_le] at be bw
  unfold deg
  refine ⟨?_, ?_, ?_, ?_⟩ <;> nlinarith [be.1, be.2, bw.1, bw.2]

/-! ### C125: extreme declinations of the Moon -/

open Verif.Model.Moonmaxdec

theorem abs_sum_cons {x b B : ℝ} {l : List ℝ} (h1 : |x| ≤ b) (h2 : |l.sum| ≤ B - b) : |(x :: l).sum| ≤ B := by
  rw [List.sum_cons]
  exact (abs_add_le _ _).trans (by linarith)

theorem term_sin (c x : ℝ) : |c * sin x| ≤ |c| := by
  rw [abs_mul]; exact mul_le_of_le_one_right (abs_nonneg c) (abs_sin_le_one x)

theorem term_cos (c x : ℝ) : |c * cos x| ≤ |c| := by
  rw [abs_mul]; exact mul_le_of_le_one_right (abs_nonneg c) (abs_cos_le_one x)

theorem term_sinE (c x E : ℝ) (hE : |E| ≤ 1.06) : |c * sin x * E| ≤ |c| * 1.06 := by
  rw [abs_mul]; exact mul_le_mul (term_sin c x) hE (abs_nonneg _) (abs_nonneg _)

theorem term_cosE (c x E : ℝ) (hE : |E| ≤ 1.06) : |c * cos x * E| ≤ |c| * 1.06 := by
  rw [abs_mul]; exact mul_le_mul (term_cos c x) hE (abs_nonneg _) (abs_nonneg _)

set_option maxHeartbeats 2000000 in
theorem timeTerms_le (D M M' F E : ℝ) (hE : |E| ≤ 1.06) : |(timeTerms nc D M M' F E).sum| ≤ 1.875 ∧ |(timeTerms sc D M M' F E).sum| ≤ 1.867 := by
  constructor
  · obtain ⟨t, ht⟩ : ∃ t, t = nc.tc := ⟨_, rfl⟩
    unfold timeTerms
    rw [← ht]
    dsimp only
    refine abs_sum_cons (term_cos _ _) ?_
    refine abs_sum_cons (term_sin _ _) ?_
    refine abs_sum_cons (term_sin _ _) ?_
    refine abs_sum_cons (term_sin _ _) ?_
    refine abs_sum_cons (term_cos _ _) ?_
    refine abs_sum_cons (term_cos _ _) ?_
    refine abs_sum_cons (term_sin _ _) ?_
    refine abs_sum_cons (term_sinE _ _ _ hE) ?_
    refine abs_sum_cons (term_cos _ _) ?_
    refine abs_sum_cons (term_sin _ _) ?_
    refine abs_sum_cons (term_cos _ _) ?_
    refine abs_sum_cons (term_cos _ _) ?_
    refine abs_sum_cons (term_cos _ _) ?_
    refine abs_sum_cons (term_cos _ _) ?_
    refine abs_sum_cons (term_sin _ _) ?_
    refine abs_sum_cons (term_sin _ _) ?_
    refine abs_sum_cons (term_cos _ _) ?_
    refine abs_sum_cons (term_sin _ _) ?_
    refine abs_sum_cons (term_sinE _ _ _ hE) ?_
    refine abs_sum_cons (term_cos _ _) ?_
    refine abs_sum_cons (term_sin _ _) ?_
    refine abs_sum_cons (term_sin _ _) ?_
    refine abs_sum_cons (term_sin _ _) ?_
    refine abs_sum_cons (term_cos _ _) ?_
    refine abs_sum_cons (term_sinE _ _ _ hE) ?_
    refine abs_sum_cons (term_sin _ _) ?_
    refine abs_sum_cons (term_sinE _ _ _ hE) ?_
    refine abs_sum_cons (term_sin _ _) ?_
    refine abs_sum_cons (term_sin _ _) ?_
    refine abs_sum_cons (term_cos _ _) ?_
    refine abs_sum_cons (term_sin _ _) ?_
    refine abs_sum_cons (term_cos _ _) ?_
    refine abs_sum_cons (term_cos _ _) ?_
    refine abs_sum_cons (term_cos _ _) ?_
    refine abs_sum_cons (term_cos _ _) ?_
    refine abs_sum_cons (term_cos _ _) ?_
    refine abs_sum_cons (term_sin _ _) ?_
    refine abs_sum_cons (term_sin _ _) ?_
    refine abs_sum_cons (term_cos _ _) ?_
    refine abs_sum_cons (term_cos _ _) ?_
    refine abs_sum_cons (term_sinE _ _ _ hE) ?_
    refine abs_sum_cons (term_sin _ _) ?_
    refine abs_sum_cons (term_cos _ _) ?_
    refine abs_sum_cons (term_cos _ _) ?_
    rw [ht, List.sum_nil, abs_zero]
    simp only [nc, List.getD_cons_succ, List.getD_cons_zero]
    norm_num [abs_of_neg, abs_of_pos]
  · obtain ⟨t, ht⟩ : ∃ t, t = sc.tc := ⟨_, rfl⟩
    unfold timeTerms
    rw [← ht]
    dsimp only
    refine abs_sum_cons (term_cos _ _) ?_
    refine abs_sum_cons (term_sin _ _) ?_
    refine abs_sum_cons (term_sin _ _) ?_
    refine abs_sum_cons (term_sin _ _) ?_
    refine abs_sum_cons (term_cos _ _) ?_
    refine abs_sum_cons (term_cos _ _) ?_
    refine abs_sum_cons (term_sin _ _) ?_
    refine abs_sum_cons (term_sinE _ _ _ hE) ?_
    refine abs_sum_cons (term_cos _ _) ?_
    refine abs_sum_cons (term_sin _ _) ?_
    refine abs_sum_cons (term_cos _ _) ?_
    refine abs_sum_cons (term_cos _ _) ?_
    refine abs_sum_cons (term_cos _ _) ?_
    refine abs_sum_cons (term_cos _ _) ?_
    refine abs_sum_cons (term_sin _ _) ?_
    refine abs_sum_cons (term_sin _ _) ?_
    refine abs_sum_cons (term_cos _ _) ?_
    refine abs_sum_cons (term_sin _ _) ?_
    refine abs_sum_cons (term_sinE _ _ _ hE) ?_
    refine abs_sum_cons (term_cos _ _) ?_
    refine abs_sum_cons (term_sin _ _) ?_
    refine abs_sum_cons (term_sin _ _) ?_
    refine abs_sum_cons (term_sin _ _) ?_
    refine abs_sum_cons (term_cos _ _) ?_
    refine abs_sum_cons (term_sinE _ _ _ hE) ?_
    refine abs_sum_cons (term_sin _ _) ?_
    refine abs_sum_cons (term_sinE _ _ _ hE) ?_
    refine abs_sum_cons (term_sin _ _) ?_
    refine abs_sum_cons (term_sin _ _) ?_
    refine abs_sum_cons (term_cos _ _) ?_
    refine abs_sum_cons (term_sin _ _) ?_
    refine abs_sum_cons (term_cos _ _) ?_
    refine abs_sum_cons (term_cos _ _) ?_
    refine abs_sum_cons (term_cos _ _) ?_
    refine abs_sum_cons (term_cos _ _) ?_
    refine abs_sum_cons (term_cos _ _) ?_
    refine abs_sum_cons (term_sin _ _) ?_
    refine abs_sum_cons (term_sin _ _) ?_
    refine abs_sum_cons (term_cos _ _) ?_
    refine abs_sum_cons (term_cos _ _) ?_
    refine abs_sum_cons (term_sinE _ _ _ hE) ?_
    refine abs_sum_cons (term_sin _ _) ?_
    refine abs_sum_cons (term_cos _ _) ?_
    refine abs_sum_cons (term_cos _ _) ?_
    rw [ht, List.sum_nil, abs_zero]
    simp only [sc, List.getD_cons_succ, List.getD_cons_zero]
    norm_num [abs_of_neg, abs_of_pos]

set_option maxHeartbeats 2000000 in
theorem decTerms_le (D M M' F E : ℝ) (hE : |E| ≤ 1.06) : |(decTerms nc D M M' F E).sum| ≤ 5.708 * deg ∧ |(decTerms sc D M M' F E).sum| ≤ 5.7 * deg := by
  have hd : 0 < deg := by unfold deg; positivity
  constructor
  · obtain ⟨t, ht⟩ : ∃ t, t = nc.dc := ⟨_, rfl⟩
    unfold decTerms
    rw [← ht]
    dsimp only
    refine abs_sum_cons (term_sin _ _) ?_
    refine abs_sum_cons (term_cos _ _) ?_
    refine abs_sum_cons (term_sin _ _) ?_
    refine abs_sum_cons (term_sin _ _) ?_
    refine abs_sum_cons (term_cos _ _) ?_
    refine abs_sum_cons (term_cos _ _) ?_
    refine abs_sum_cons (term_sin _ _) ?_
    refine abs_sum_cons (term_sin _ _) ?_
    refine abs_sum_cons (term_cos _ _) ?_
    refine abs_sum_cons (term_sinE _ _ _ hE) ?_
    refine abs_sum_cons (term_sin _ _) ?_
    refine abs_sum_cons (term_sin _ _) ?_
    refine abs_sum_cons (term_sin _ _) ?_
    refine abs_sum_cons (term_sinE _ _ _ hE) ?_
    refine abs_sum_cons (term_sin _ _) ?_
    refine abs_sum_cons (term_cos _ _) ?_
    refine abs_sum_cons (term_cos _ _) ?_
    refine abs_sum_cons (term_cos _ _) ?_
    refine abs_sum_cons (term_cos _ _) ?_
    refine abs_sum_cons (term_cos _ _) ?_
    refine abs_sum_cons (term_cos _ _) ?_
    refine abs_sum_cons (term_sin _ _) ?_
    refine abs_sum_cons (term_sin _ _) ?_
    refine abs_sum_cons (term_cosE _ _ _ hE) ?_
    refine abs_sum_cons (term_cos _ _) ?_
    refine abs_sum_cons (term_cos _ _) ?_
    refine abs_sum_cons (term_sin _ _) ?_
    refine abs_sum_cons (term_cos _ _) ?_
    refine abs_sum_cons (term_cos _ _) ?_
    refine abs_sum_cons (term_sin _ _) ?_
    refine abs_sum_cons (term_cos _ _) ?_
    refine abs_sum_cons (term_cos _ _) ?_
    refine abs_sum_cons (term_sin _ _) ?_
    refine abs_sum_cons (term_cos _ _) ?_
    refine abs_sum_cons (term_cos _ _) ?_
    refine abs_sum_cons (term_sin _ _) ?_
    refine abs_sum_cons (term_sin _ _) ?_
    rw [ht, List.sum_nil, abs_zero]
    simp only [nc, List.getD_cons_succ, List.getD_cons_zero, abs_mul, abs_of_pos hd]
    norm_num [abs_of_neg, abs_of_pos]
    nlinarith
  · obtain ⟨t, ht⟩ : ∃ t, t = sc.dc := ⟨_, rfl⟩
    unfold decTerms
    rw [← ht]
    dsimp only
    refine abs_sum_cons (term_sin _ _) ?_
    refine abs_sum_cons (term_cos _ _) ?_
    refine abs_sum_cons (term_sin _ _) ?_
    refine abs_sum_cons (term_sin _ _) ?_
    refine abs_sum_cons (term_cos _ _) ?_
    refine abs_sum_cons (term_cos _ _) ?_
    refine abs_sum_cons (term_sin _ _) ?_
    refine abs_sum_cons (term_sin _ _) ?_
    refine abs_sum_cons (term_cos _ _) ?_
    refine abs_sum_cons (term_sinE _ _ _ hE) ?_
    refine abs_sum_cons (term_sin _ _) ?_
    refine abs_sum_cons (term_sin _ _) ?_
    refine abs_sum_cons (term_sin _ _) ?_
    refine abs_sum_cons (term_sinE _ _ _ hE) ?_
    refine abs_sum_cons (term_sin _ _) ?_
    refine abs_sum_cons (term_cos _ _) ?_
    refine abs_sum_cons (term_cos _ _) ?_
    refine abs_sum_cons (term_cos _ _) ?_
    refine abs_sum_cons (term_cos _ _) ?_
    refine abs_sum_cons (term_cos _ _) ?_
    refine abs_sum_cons (term_cos _ _) ?_
    refine abs_sum_cons (term_sin _ _) ?_
    refine abs_sum_cons (term_sin _ _) ?_
    refine abs_sum_cons (term_cosE _ _ _ hE) ?_
    refine abs_sum_cons (term_cos _ _) ?_
    refine abs_sum_cons (term_cos _ _) ?_
    refine abs_sum_cons (term_sin _ _) ?_
    refine abs_sum_cons (term_cos _ _) ?_
    refine abs_sum_cons (term_cos _ _) ?_
    refine abs_sum_cons (term_sin _ _) ?_
    refine abs_sum_cons (term_cos _ _) ?_
    refine abs_sum_cons (term_cos _ _) ?_
    refine abs_sum_cons (term_sin _ _) ?_
    refine abs_sum_cons (term_cos _ _) ?_
    refine abs_sum_cons (term_cos _ _) ?_
    refine abs_sum_cons (term_sin _ _) ?_
    refine abs_sum_cons (term_sin _ _) ?_
    rw [ht, List.sum_nil, abs_zero]
    simp only [sc, List.getD_cons_succ, List.getD_cons_zero, abs_mul, abs_of_pos hd]
    norm_num [abs_of_neg, abs_of_pos]
    nlinarith

theorem maxE (T : ℝ) (hT : |T| ≤ 20) : |hornerR T [1, -0.002516, -0.0000074]| ≤ 1.06 := by
  refine (abs_hornerR_le T 20 hT _).trans ?_
  norm_num [hornerR, abs_of_neg]

theorem max_T (k : ℤ) (hk : |k| ≤ 26700) : |(k : ℝ) * ck| ≤ 20 := by
  have : |(k : ℝ)| ≤ 26700 := by exact_mod_cast hk
  unfold ck
  rw [abs_mul, abs_of_pos (by norm_num : (0 : ℝ) < 1 / 1336.86)]
  norm_num at *
  linarith

/-- The times lie within 1.875 days of an even sequence. -/
theorem max_time (k : ℤ) (hk : |k| ≤ 26700) :
    |(maxAt k nc).1 - hornerR (k * ck) [2451562.5897, 27.321582247 / ck, 0.000119804, -0.000000141]| ≤ 1.875 ∧
    |(maxAt k sc).1 - hornerR (k * ck) [2451548.9289, 27.321582247 / ck, 0.000119804, -0.000000141]| ≤ 1.867 := by
  have hE := maxE _ (max_T k hk)
  constructor
  · have := (timeTerms_le (hornerR (k * ck) [nc.D, 333.0705546 * deg / ck, -0.0004214 * deg, 0.00000011 * deg])
      (hornerR (k * ck) [nc.M, 26.9281592 * deg / ck, -0.0000355 * deg, -0.0000001 * deg])
      (hornerR (k * ck) [nc.M', 356.9562794 * deg / ck, 0.0103066 * deg, 0.00001251 * deg])
      (hornerR (k * ck) [nc.F, 1.4467807 * deg / ck, -0.002069 * deg, -0.00000215 * deg]) _ hE).1
    refine le_trans (le_of_eq ?_) this
    rw [maxAt]
    simp only
    rw [show nc.JDE = 2451562.5897 from rfl, add_sub_cancel_left]
  · have := (timeTerms_le (hornerR (k * ck) [sc.D, 333.0705546 * deg / ck, -0.0004214 * deg, 0.00000011 * deg])
      (hornerR (k * ck) [sc.M, 26.9281592 * deg / ck, -0.0000355 * deg, -0.0000001 * deg])
      (hornerR (k * ck) [sc.M', 356.9562794 * deg / ck, 0.0103066 * deg, 0.00001251 * deg])
      (hornerR (k * ck) [sc.F, 1.4467807 * deg / ck, -0.002069 * deg, -0.00000215 * deg]) _ hE).2
    refine le_trans (le_of_eq ?_) this
    rw [maxAt]
    simp only
    rw [show sc.JDE = 2451548.9289 from rfl, add_sub_cancel_left]

/-- C125.  The declinations are between 17.7 and 29.7 degrees, north and south. -/
theorem C125_declination (k : ℤ) (hk : |k| ≤ 26700) :
    17.7 * deg ≤ (maxAt k nc).2 ∧ (maxAt k nc).2 ≤ 29.7 * deg ∧ -29.7 * deg ≤ (maxAt k sc).2 ∧ (maxAt k sc).2 ≤ -17.7 * deg := by
  have hE := maxE _ (max_T k hk)
  have hT := abs_le.mp (max_T k hk)
  have hd : 0 < deg := by unfold deg; positivity
  have h1 := abs_le.mp (decTerms_le (hornerR (k * ck) [nc.D, 333.0705546 * deg / ck, -0.0004214 * deg, 0.00000011 * deg])
      (hornerR (k * ck) [nc.M, 26.9281592 * deg / ck, -0.0000355 * deg, -0.0000001 * deg])
      (hornerR (k * ck) [nc.M', 356.9562794 * deg / ck, 0.0103066 * deg, 0.00001251 * deg])
      (hornerR (k * ck) [nc.F, 1.4467807 * deg / ck, -0.002069 * deg, -0.00000215 * deg]) _ hE).1
  have h2 := abs_le.mp (decTerms_le (hornerR (k * ck) [sc.D, 333.0705546 * deg / ck, -0.0004214 * deg, 0.00000011 * deg])
      (hornerR (k * ck) [sc.M, 26.9281592 * deg / ck, -0.0000355 * deg, -0.0000001 * deg])
      (hornerR (k * ck) [sc.M', 356.9562794 * deg / ck, 0.0103066 * deg, 0.00001251 * deg])
      (hornerR (k * ck) [sc.F, 1.4467807 * deg / ck, -0.002069 * deg, -0.00000215 * deg]) _ hE).2
  rw [maxAt, maxAt]
  simp only
  rw [show nc.s = 1 from rfl, show sc.s = -1 from rfl]
  refine ⟨?_, ?_, ?_, ?_⟩ <;> nlinarith [h1.1, h1.2, h2.1, h2.2]

theorem max_grow (a b : ℝ) (k k' : ℤ) (hk : |k| ≤ 26700) (hk' : |k'| ≤ 26700) (h : k ≤ k') :
    (k' - k : ℝ) * 27.32 + (b - a) ≤ hornerR (k' * ck) [b, 27.321582247 / ck, 0.000119804, -0.000000141] -
      hornerR (k * ck) [a, 27.321582247 / ck, 0.000119804, -0.000000141] := by
  have T1 := max_T k hk
  have T2 := max_T k' hk'
  have hc : 0 < ck := by unfold ck; norm_num
  have hkk : (k : ℝ) ≤ k' := by exact_mod_cast h
  have := quartic_growth a (27.321582247 / ck) 0.000119804 (-0.000000141) 0 (k * ck) (k' * ck) 20 (by norm_num) T1 T2 (by gcongr)
  have e : ∀ T c : ℝ, hornerR T [c, 27.321582247 / ck, 0.000119804, -0.000000141] = hornerR T [a, 27.321582247 / ck, 0.000119804, -0.000000141, 0] + (c - a) := by
    intro T c; simp [hornerR]
  rw [e _ b, e _ a]
  have e2 : (k' * ck - k * ck) * (27.321582247 / ck - 2 * 20 * |0.000119804| - 3 * 20 ^ 2 * |(-0.000000141 : ℝ)| - 4 * 20 ^ 3 * |(0 : ℝ)|) =
      (k' - k : ℝ) * (27.321582247 - ck * (2 * 20 * |0.000119804| + 3 * 20 ^ 2 * |(-0.000000141 : ℝ)|)) := by
    rw [abs_zero]
    field_simp
    ring
  rw [e2] at this
  have e3 : (27.32 : ℝ) ≤ 27.321582247 - ck * (2 * 20 * |0.000119804| + 3 * 20 ^ 2 * |(-0.000000141 : ℝ)|) := by
    unfold ck; norm_num [abs_of_neg]
  nlinarith [mul_nonneg (sub_nonneg.2 hkk) (sub_nonneg.2 e3)]

/-- C125.  The extreme declinations come in order, southern and northern in turn, 9.9 days apart at least. -/
theorem C125_alternate (k : ℤ) (hk : |k| ≤ 26600) :
    (maxAt k sc).1 + 9.9 ≤ (maxAt k nc).1 ∧ (maxAt k nc).1 + 9.9 ≤ (maxAt (k + 1) sc).1 := by
  have hb := abs_le.mp hk
  have hk1 : |k| ≤ 26700 := by omega
  have hk2 : |k + 1| ≤ 26700 := by rw [abs_le]; omega
  have g1 := max_grow 2451548.9289 2451562.5897 k k hk1 hk1 le_rfl
  have g2 := max_grow 2451562.5897 2451548.9289 k (k + 1) hk1 hk2 (by omega)
  have t1 := max_time k hk1
  have t2 := max_time (k + 1) hk2
  rw [abs_le, abs_le] at t1 t2
  push_cast at *
  constructor
  · linarith [t1.1.1, t1.1.2, t1.2.1, t1.2.2]
  · linarith [t1.1.1, t1.1.2, t2.2.1, t2.2.2]

/-- C125.  The results follow the order of the years asked for, distinct ones 23 days apart at least. -/
theorem C125_monotone (y y' : ℝ) (h1 : 10 ≤ y) (h : y ≤ y') (h2 : y' ≤ 3990) :
    (North y = North y' ∨ (North y).1 + 23 ≤ (North y').1) ∧ (South y = South y' ∨ (South y).1 + 23 ≤ (South y').1) := by
  have hm : maxK y ≤ maxK y' := by
    unfold maxK
    apply Int.floor_le_floor
    linarith
  have r : ∀ z : ℝ, 10 ≤ z → z ≤ 3990 → |maxK z| ≤ 26700 := by
    intro z a b
    have q1 := Int.floor_le ((z - 2000.03) * 13.3686 + 0.5)
    have q2 := Int.lt_floor_add_one ((z - 2000.03) * 13.3686 + 0.5)
    unfold maxK
    rw [abs_le]
    constructor
    · have : (-26700 : ℝ) ≤ ⌊(z - 2000.03) * 13.3686 + 0.5⌋ := by linarith
      exact_mod_cast this
    · have : (⌊(z - 2000.03) * 13.3686 + 0.5⌋ : ℝ) ≤ 26700 := by linarith
      exact_mod_cast this
  have r1 := r y h1 (by linarith)
  have r2 := r y' (by linarith) h2
  unfold North South Moonmaxdec.max
  rcases eq_or_lt_of_le hm with he | hlt
  · rw [he]; exact ⟨.inl rfl, .inl rfl⟩
  · have hk : (maxK y : ℝ) + 1 ≤ maxK y' := by exact_mod_cast hlt
    have t1 := max_time _ r1
    have t2 := max_time _ r2
    rw [abs_le, abs_le] at t1 t2
    have g1 := max_grow 2451562.5897 2451562.5897 _ _ r1 r2 hm
    have g2 := max_grow 2451548.9289 2451548.9289 _ _ r1 r2 hm
    constructor
    · right
      nlinarith [t1.1.1, t1.1.2, t2.1.1, t2.1.2]
    · right
      nlinarith [t1.2.1, t1.2.2, t2.2.1, t2.2.2]

/-- C125.  "The event nearest the given date" is false: for the year 1999.993 (1999 December 29) `North` returns an event at least
18 days later although there is one, which it returns for the year 1999.95, less than 10 days earlier.  The same for `South` and
the year 2000.067. -/
theorem C125_nearest_violation :
    18 < (North 1999.993).1 - (2451545 + 365.25 * (1999.993 - 2000)) ∧
    |(North 1999.95).1 - (2451545 + 365.25 * (1999.993 - 2000))| < 10 ∧
    18 < (2451545 + 365.25 * (2000.067 - 2000)) - (South 2000.067).1 ∧
    |(South 2000.1).1 - (2451545 + 365.25 * (2000.067 - 2000))| < 10 := by
  have k1 : maxK 1999.993 = 0 := by unfold maxK; rw [Int.floor_eq_iff]; norm_num
  have k2 : maxK 1999.95 = -1 := by unfold maxK; rw [Int.floor_eq_iff]; norm_num
  have k3 : maxK 2000.067 = 0 := by unfold maxK; rw [Int.floor_eq_iff]; norm_num
  have k4 : maxK 2000.1 = 1 := by unfold maxK; rw [Int.floor_eq_iff]; norm_num
  have t0 := max_time 0 (by norm_num)
  have t1 := max_time 1 (by norm_num)
  have t2 := max_time (-1) (by norm_num)
  unfold North South Moonmaxdec.max
  rw [k1, k2, k3, k4]
  norm_num [hornerR, ck] at t0 t1 t2
  rw [abs_le, abs_le] at t0 t1 t2
  rw [abs_lt, abs_lt]
  norm_num
  refine ⟨?_, ⟨?_, ?_⟩, ?_, ?_, ?_⟩ <;> linarith [t0.1.1, t0.1.2, t0.2.1, t0.2.2, t1.1.1, t1.1.2, t1.2.1, t1.2.2, t2.1.1, t2.1.2, t2.2.1, t2.2.2]

end Verif.Props
