import Verif.Model.Planetary64
import Mathlib.Tactic
/-
C188: times of planetary phenomena in double precision.
-/
namespace Verif.Props

open Real Verif.Model Verif.Go Verif.Go.F64 Verif.Go.F64.Ex

namespace Planetary64v

open Planetary64

/-- The coefficients as the model has them. -/
noncomputable def rowR (l : List ℤ) : List ℝ := l.map fun n : ℤ => (n : ℝ) / 100000
noncomputable def tblR (c : List (List ℤ)) : List (List ℝ) := c.map rowR
noncomputable def aaR (l : List (ℤ × ℤ)) : List (ℝ × ℝ) := l.map fun a => ((a.1 : ℝ) / 100, (a.2 : ℝ) / 100)
noncomputable def caR (a : Ca) : Planetary.Ca := ⟨a.A / 1000, a.B / 10000000, a.M0 / 10000, a.M1 / 10000000⟩

theorem horner_v (ρ : ℕ → ℝ) (x : Ex) : ∀ l : List Ex, (horner x l).val ρ = hornerR (x.val ρ) (l.map (val ρ))
  | [] => by simp [horner, hornerR, val_q]
  | [a] => by simp [horner, hornerR]
  | a :: b :: l => by
    have := horner_v ρ x (b :: l)
    rw [horner, val_add, val_mul, this]
    · simp [hornerR]
    · simp

theorem row_v (ρ : ℕ → ℝ) (x : Ex) (l : List ℤ) : (horner x (row l)).val ρ = hornerR (x.val ρ) (rowR l) := by
  rw [horner_v, row, rowR, List.map_map]
  congr 1

theorem sumLoop_v (ρ : ℕ → ℝ) (T M : Ex) : ∀ (c : List (List ℤ)), c.length % 2 = 0 → ∀ mm j : Ex,
    Planetary.sumLoop (T.val ρ) (M.val ρ) (mm.val ρ) (tblR c) (j.val ρ) = some ((sumLoop T M mm c j).val ρ)
  | [], _, mm, j => by simp [Planetary.sumLoop, sumLoop, tblR]
  | [_], h, mm, j => by simp at h
  | a :: b :: rest, h, mm, j => by
    have ih := sumLoop_v ρ T M rest (by simp only [List.length_cons] at h; omega) (mm + M)
      (j + Ex.sin (mm + M) * horner T (row a) + Ex.cos (mm + M) * horner T (row b))
    simp only [tblR, List.map_cons] at ih ⊢
    rw [Planetary.sumLoop, sumLoop, ← ih]
    simp only [val_add, val_mul, val_sin, val_cos, row_v]

theorem sum_v (ρ : ℕ → ℝ) (T M : Ex) (c : List (List ℤ)) (h : c.length % 2 = 1) :
    Planetary.sum (T.val ρ) (M.val ρ) (tblR c) = some ((sum T M c).val ρ) := by
  rcases c with _ | ⟨c0, rest⟩
  · simp at h
  · have := sumLoop_v ρ T M rest (by simp only [List.length_cons] at h; omega) (q 0 1) (horner T (row c0))
    rw [val_q, Int.cast_zero, zero_div, row_v] at this
    exact this

theorem addLoop_v (ρ : ℕ → ℝ) (T : Ex) : ∀ (aa : List (ℤ × ℤ)) (c : List (List ℤ)), c.length = 2 * aa.length → ∀ j : Ex,
    Planetary.addLoop (T.val ρ) (aaR aa) (tblR c) (j.val ρ) = some ((addLoop T aa c j).val ρ)
  | [], cc, _, j => by simp [Planetary.addLoop, addLoop, aaR]
  | _ :: _, [], h, j => by simp at h
  | _ :: _, [_], h, j => by simp only [List.length_cons, List.length_nil] at h; omega
  | x :: aa, a :: b :: rest, h, j => by
    have ih := addLoop_v ρ T aa rest (by simp only [List.length_cons] at h; omega)
      (j + Ex.sin (angle T x) * horner T (row a) + Ex.cos (angle T x) * horner T (row b))
    have ha : (angle T x).val ρ = ((x.1 : ℝ) / 100 + (x.2 : ℝ) / 100 * T.val ρ) * π / 180 := by
      simp only [angle, val_div, val_mul, val_add, val_q, val_p]; norm_num
    simp only [tblR, aaR, List.map_cons] at ih ⊢
    rw [Planetary.addLoop, addLoop, ← ih]
    simp only [val_add, val_mul, val_sin, val_cos, row_v, ha]

theorem sumA_v (ρ : ℕ → ℝ) (T M : Ex) (c : List (List ℤ)) (aa : List (ℤ × ℤ)) (h : 2 * aa.length ≤ c.length) (h2 : c.length % 2 = 1) :
    Planetary.sumA (T.val ρ) (M.val ρ) (tblR c) (aaR aa) = some ((sumA T M c aa).val ρ) := by
  have l1 : (tblR c).length = c.length := by simp [tblR]
  have l2 : (aaR aa).length = aa.length := by simp [aaR]
  unfold Planetary.sumA sumA
  rw [l1, l2, if_neg (by omega)]
  have s := sum_v ρ T M (c.take (c.length - 2 * aa.length)) (by rw [List.length_take]; omega)
  have a := addLoop_v ρ T aa (c.drop (c.length - 2 * aa.length)) (by rw [List.length_drop]; omega) (sum T M (c.take (c.length - 2 * aa.length)))
  simp only [tblR, List.map_take, List.map_drop] at s a ⊢
  rw [s, Option.bind_some, a]

/-- Turns of the anomaly do not matter. -/
theorem sumLoop_turn (T M : ℝ) (n : ℤ) : ∀ (c : List (List ℝ)) (mm j : ℝ) (m : ℤ),
    Planetary.sumLoop T (M + n * (2 * π)) (mm + m * (2 * π)) c j = Planetary.sumLoop T M mm c j
  | [], _, _, _ => by simp [Planetary.sumLoop]
  | [_], _, _, _ => by simp [Planetary.sumLoop]
  | a :: b :: rest, mm, j, m => by
    have e : mm + m * (2 * π) + (M + n * (2 * π)) = mm + M + ((m + n : ℤ) : ℝ) * (2 * π) := by push_cast; ring
    simp only [Planetary.sumLoop]
    rw [e, sumLoop_turn T M n rest, Real.sin_add_int_mul_two_pi, Real.cos_add_int_mul_two_pi]

theorem sumA_turn (T M : ℝ) (n : ℤ) (c : List (List ℝ)) (aa : List (ℝ × ℝ)) : Planetary.sumA T (M + n * (2 * π)) c aa = Planetary.sumA T M c aa := by
  have h : ∀ c, Planetary.sum T (M + n * (2 * π)) c = Planetary.sum T M c := by
    intro c
    rcases c with _ | ⟨c0, rest⟩
    · rfl
    · have := sumLoop_turn T M n rest 0 (hornerR T c0) 0
      rw [Int.cast_zero, zero_mul, add_zero] at this
      exact this
  unfold Planetary.sumA
  simp only [h]

theorem snap_floor {x w δ : ℝ} (d2 : 0 < δ) (d1 : δ ≤ 1 / 100) (h : |x - (w + 1 / 2)| ≤ δ) :
    |w - ⌊x⌋| ≤ 1 / 2 + δ ∧ (δ < |Int.fract w - 1 / 2| → ⌊x⌋ = ⌊w + 1 / 2⌋) := by
  have f1 := Int.floor_le x
  have f2 := Int.lt_floor_add_one x
  rw [abs_le] at h
  refine ⟨abs_le.mpr ⟨by linarith, by linarith⟩, ?_⟩
  intro hf
  have g1 := Int.floor_add_fract w
  have g2 := Int.fract_nonneg w
  have g3 := Int.fract_lt_one w
  rcases le_or_gt (Int.fract w) (1 / 2) with hc | hc
  · rw [abs_of_nonpos (by linarith)] at hf
    have e1 : ⌊x⌋ = ⌊w⌋ := by
      rw [Int.floor_eq_iff]; constructor <;> linarith
    have e2 : ⌊w + 1 / 2⌋ = ⌊w⌋ := by
      rw [Int.floor_eq_iff]; constructor <;> linarith
    rw [e1, e2]
  · rw [abs_of_pos (by linarith)] at hf
    have e1 : ⌊x⌋ = ⌊w⌋ + 1 := by
      rw [Int.floor_eq_iff]; push_cast; constructor <;> linarith
    have e2 : ⌊w + 1 / 2⌋ = ⌊w⌋ + 1 := by
      rw [Int.floor_eq_iff]; push_cast; constructor <;> linarith
    rw [e1, e2]

/-- The number of the event, before rounding to an integer. -/
noncomputable def kArg (y : ℝ) (a : Planetary.Ca) : ℝ := (365.2425 * y + 1721060 - a.A) / a.B

/-- The row of constants is of the kind of the table. -/
def caOk (a : Ca) : Bool := decide (2451500000 ≤ a.A ∧ a.A ≤ 2452200000 ∧ 1150000000 ≤ a.B ∧ a.B ≤ 8000000000) &&
  within [(6000 * 2 ^ 64, 0)] (num a) (2 ^ 100) 680564733841876926926749214863

theorem k_close {l : Trig} (hl : l.Ok) {y : ℝ} (hy : |y - 2000| ≤ 4000) {a : Ca} (ha : caOk a = true) {n : ℝ} (hn : Run l (fun _ => y) (num a) n) :
    |fl (fl (n / fl ((a.B : ℝ) / 10000000)) + 0.5) - (kArg y (caR a) + 1 / 2)| ≤ 1e-10 ∧ |kArg y (caR a)| * (a.B / 10000000) ≤ 1462000 := by
  unfold caOk at ha
  rw [Bool.and_eq_true, decide_eq_true_eq] at ha
  obtain ⟨⟨a1, a2, b1, b2⟩, hw⟩ := ha
  have a1' : (2451500000 : ℝ) ≤ a.A := by exact_mod_cast a1
  have a2' : (a.A : ℝ) ≤ 2452200000 := by exact_mod_cast a2
  have b1' : (1150000000 : ℝ) ≤ a.B := by exact_mod_cast b1
  have b2' : (a.B : ℝ) ≤ 8000000000 := by exact_mod_cast b2
  have hy6 : |y| ≤ (6000 : ℕ) := by
    push_cast
    rw [abs_le] at hy ⊢
    constructor <;> linarith [hy.1, hy.2]
  have e := (within_bound hl (env_one hy6) hn hw).2
  have hv : (num a).val (fun _ => y) = 365.2425 * y + 1721060 - (a.A : ℝ) / 1000 := by
    simp only [num, val_sub, val_add, val_mul, val_q, val_v]; norm_num
  rw [hv] at e
  have e' : |n - (365.2425 * y + 1721060 - (a.A : ℝ) / 1000)| ≤ 2e-9 := e.trans (by norm_num)
  clear e hw hn
  have hN : |365.2425 * y + 1721060 - (a.A : ℝ) / 1000| ≤ 1462000 := by
    rw [abs_le] at hy ⊢
    constructor <;> linarith [hy.1, hy.2]
  unfold kArg caR
  dsimp only
  generalize hNd : 365.2425 * y + 1721060 - (a.A : ℝ) / 1000 = N at *
  obtain ⟨B, hB⟩ : ∃ B : ℝ, B = (a.B : ℝ) / 10000000 := ⟨_, rfl⟩
  have hB1 : 115 ≤ B := by rw [hB]; linarith
  have hB2 : B ≤ 800 := by rw [hB]; linarith
  rw [← hB]
  have hB0 : 0 < B := by linarith
  have hb := fl_err B
  rw [abs_of_pos hB0] at hb
  obtain ⟨b, hbd⟩ : ∃ b, b = fl B := ⟨_, rfl⟩
  rw [← hbd] at hb ⊢
  have hb' : |b - B| ≤ B * 1.2e-16 := by
    refine hb.trans ?_
    norm_num
    linarith
  have hb2 := abs_le.mp hb'
  have hb115 : 114 ≤ b := by linarith
  have hb0 : 0 < b := by linarith
  have hNB : |N / B| * B = |N| := by rw [abs_div, abs_of_pos hB0, div_mul_cancel₀ _ hB0.ne']
  have hq : |n / b - N / B| ≤ 2.2e-11 := by
    have : n / b - N / B = ((n - N) - N / B * (b - B)) / b := by field_simp; ring
    rw [this, abs_div, abs_of_pos hb0, div_le_iff₀ hb0]
    refine (abs_sub _ _).trans ?_
    rw [abs_mul]
    have t : |N / B| * |b - B| ≤ |N| * 1.2e-16 := by
      calc |N / B| * |b - B| ≤ |N / B| * (B * 1.2e-16) := mul_le_mul_of_nonneg_left hb' (abs_nonneg _)
        _ = |N / B| * B * 1.2e-16 := by ring
        _ = _ := by rw [hNB]
    linarith
  have hNB2 : |N / B| ≤ 13000 := by
    rw [abs_div, abs_of_pos hB0, div_le_iff₀ hB0]
    linarith
  refine ⟨?_, by rw [hNB]; exact hN⟩
  have hq' := abs_le.mp hq
  have hNB' := abs_le.mp hNB2
  have f1 : |fl (n / b) - n / b| ≤ 2e-12 := by
    refine (fl_err _).trans ?_
    have : |n / b| ≤ 13001 := abs_le.mpr ⟨by linarith, by linarith⟩
    have : |n / b| / 2 ^ 53 ≤ 13001 / 2 ^ 53 := by gcongr
    norm_num at this ⊢
    linarith
  have f1' := abs_le.mp f1
  have f2 : |fl (fl (n / b) + 0.5) - (fl (n / b) + 0.5)| ≤ 2e-12 := by
    refine (fl_err _).trans ?_
    have : |fl (n / b) + 0.5| ≤ 13003 := abs_le.mpr ⟨by linarith, by linarith⟩
    have : |fl (n / b) + 0.5| / 2 ^ 53 ≤ 13003 / 2 ^ 53 := by gcongr
    norm_num at this ⊢
    linarith
  have f2' := abs_le.mp f2
  rw [abs_le]
  constructor <;> linarith

/-- The event number k. -/
noncomputable def evK (a : Planetary.Ca) (c : List (List ℝ)) (aa : List (ℝ × ℝ)) (k : ℝ) : Option ℝ :=
  (Planetary.sumA (J2000Century (a.A + k * a.B)) (pmod (a.M0 + k * a.M1) 360 * π / 180) c aa).map ((a.A + k * a.B) + ·)

/-- The environment: k, and the reduced anomaly. -/
def envK (K : ℕ) : List (ℕ × ℕ) := [(K * 2 ^ 64, 0), (361 * 2 ^ 64, 170141183460469231731687303715)]

/-- What is assumed of unit.PMod(·, 360): a remainder in [0, 360], right to 10⁻¹³. -/
def PModOk (pm : ℝ → ℝ) : Prop := ∀ x, |x| ≤ 2000000 → 0 ≤ pm x ∧ pm x ≤ 360 ∧ ∃ n : ℤ, |pm x - (x - n * 360)| ≤ 1e-13

theorem env_k {K : ℕ} {k r r' : ℝ} (hk : |k| ≤ K) (hr : |r| ≤ 361) (hd : |r' - r| ≤ 4.99e-10) :
    ∀ i p, (envK K)[i]? = some p → Fits ((fun i => if i = 0 then k else r : ℕ → ℝ) i) ((fun i => if i = 0 then k else r' : ℕ → ℝ) i) p := by
  intro i p hp
  unfold envK at hp
  rcases i with _ | _ | i
  · simp only [List.getElem?_cons_zero, Option.some.injEq] at hp
    subst hp
    have := env_one hk 0 _ rfl
    exact this
  · simp only [List.getElem?_cons_succ, List.getElem?_cons_zero, Option.some.injEq] at hp
    subst hp
    constructor
    · show |r| ≤ _
      norm_num
      linarith
    · show |r' - r| ≤ _
      refine hd.trans ?_
      norm_num
  · simp at hp

/-- What the analyser finds. -/
def anomOk (a : Ca) (K : ℕ) : Bool := within (envK K) (anom a) (2000000 * 2 ^ 64 - 2 ^ 64) 169120336359706416341297179893
def evOk (a : Ca) (c : List (List ℤ)) (aa : List (ℤ × ℤ)) (K : ℕ) : Bool :=
  decide (2 * aa.length ≤ c.length ∧ c.length % 2 = 1) && decide (1462000 * 10000000 ≤ (K - 1) * a.B) && caOk a && anomOk a K &&
  within (envK K) (J a + sumA (T a) M c aa) (2 ^ 100) 1020847100762815390390123822295

theorem mean_close {l : Trig} (hl : l.Ok) {pm : ℝ → ℝ} (hpm : PModOk pm) {y : ℝ} (hy : |y - 2000| ≤ 4000) {a : Ca} {K : ℕ} (hB : 1462000 * 10000000 ≤ ((K : ℤ) - 1) * a.B)
    (ha : caOk a = true) (hw : anomOk a K = true) {k r : ℝ} (h : mean l pm y a k r) :
    ∃ n m : ℤ, k = n ∧ |kArg y (caR a) - n| ≤ 1 / 2 + 1e-10 ∧ (1e-10 < |Int.fract (kArg y (caR a)) - 1 / 2| → n = ⌊kArg y (caR a) + 1 / 2⌋) ∧ |k| ≤ K ∧
      |(caR a).M0 + k * (caR a).M1 - m * 360| ≤ 361 ∧ |r - ((caR a).M0 + k * (caR a).M1 - m * 360)| ≤ 4.99e-10 := by
  obtain ⟨x, mm, hx, hk, hm, hr⟩ := h
  obtain ⟨c1, c2⟩ := k_close hl hy ha hx
  obtain ⟨s1, s2⟩ := snap_floor (by norm_num) (by norm_num) c1
  set n := ⌊fl (fl (x / fl ((a.B : ℝ) / 10000000)) + 0.5)⌋ with hn
  have hkK : |k| ≤ K := by
    have hB' : (1462000 * 10000000 : ℝ) ≤ ((K : ℝ) - 1) * a.B := by exact_mod_cast hB
    have hw1 : |kArg y (caR a)| ≤ K - 1 := by
      have hBpos : (0 : ℝ) < a.B := by
        unfold caOk at ha
        rw [Bool.and_eq_true, decide_eq_true_eq] at ha
        have : (1150000000 : ℝ) ≤ a.B := by exact_mod_cast ha.1.2.2.1
        linarith
      by_contra hc
      push Not at hc
      have := mul_lt_mul_of_pos_right hc hBpos
      linarith
    rw [hk]
    have s1' : |kArg y (caR a) - n| ≤ 1 := s1.trans (by norm_num)
    rw [abs_le] at hw1 s1' ⊢
    constructor <;> linarith [hw1.1, hw1.2, s1'.1, s1'.2]
  unfold anomOk at hw
  have hv : (anom a).val (fun i => if i = 0 then k else 0) = (caR a).M0 + k * (caR a).M1 := by
    simp only [anom, val_add, val_mul, val_q, val_v, caR, if_true]; norm_num
  have hrun : Run l (fun i => if i = 0 then k else 0) (anom a) mm := by
    have hany : ∀ (ρ ρ' : ℕ → ℝ), ρ 0 = ρ' 0 → ∀ z, Run l ρ (anom a) z → Run l ρ' (anom a) z := by
      intro ρ ρ' h0 z hz
      unfold anom at hz ⊢
      cases hz with
      | add p1 p2 =>
        cases p1
        cases p2 with
        | mul p3 p4 =>
          cases p3
          cases p4
          rw [h0]
          exact .add (.c _ _ _) (.mul (.v 0) (.c _ _ _))
      | addMul p1 p2 p3 =>
        cases p1
        cases p2
        cases p3
        rw [h0]
        exact .addMul (.c _ _ _) (.v 0) (.c _ _ _)
    exact hany _ _ (by simp) _ hm
  obtain ⟨w1, w2⟩ := within_bound hl (env_k hkK (r := 0) (r' := 0) (by norm_num) (by norm_num)) hrun hw
  rw [hv] at w1 w2
  have w1' : |(caR a).M0 + k * (caR a).M1| ≤ 1999999 := w1.trans (by norm_num)
  have w2' : |mm - ((caR a).M0 + k * (caR a).M1)| ≤ 4.97e-10 := w2.trans (by norm_num)
  clear w1 w2 hw hrun hv
  generalize (caR a).M0 + k * (caR a).M1 = A at *
  have w3 := abs_le.mp w2'
  have w4 := abs_le.mp w1'
  obtain ⟨p0, p1, m, p2⟩ := hpm mm (abs_le.mpr ⟨by linarith, by linarith⟩)
  rw [← hr] at p0 p1 p2
  have p3 := abs_le.mp p2
  refine ⟨n, m, hk, s1, s2, hkK, abs_le.mpr ⟨by linarith, by linarith⟩, abs_le.mpr ⟨by linarith, by linarith⟩⟩

theorem anomaly_turn (A : ℝ) (m : ℤ) : ∃ n : ℤ, pmod A 360 * π / 180 = (A - m * 360) * π / 180 + n * (2 * π) := by
  refine ⟨m - ⌊A / 360⌋, ?_⟩
  unfold pmod
  push_cast
  ring

/-- `out` is within 3·10⁻⁹ day of an event of the formulas: the event which the formulas choose unless the date is within 10⁻¹⁰ period of the middle between two. -/
def NearPlan (a : Planetary.Ca) (c : List (List ℝ)) (aa : List (ℝ × ℝ)) (y out : ℝ) : Prop :=
  ∃ n : ℤ, |kArg y a - n| ≤ 1 / 2 + 1e-10 ∧ (∃ e, evK a c aa n = some e ∧ |out - e| ≤ 3e-9) ∧
    (1e-10 < |Int.fract (kArg y a) - 1 / 2| → ∃ e, Planetary.msa y a c aa = some e ∧ |out - e| ≤ 3e-9)

theorem msa_evK (y : ℝ) (a : Planetary.Ca) (c : List (List ℝ)) (aa : List (ℝ × ℝ)) : Planetary.msa y a c aa = evK a c aa ⌊kArg y a + 1 / 2⌋ := by
  unfold Planetary.msa Planetary.mean evK kArg
  rw [show (0.5 : ℝ) = 1 / 2 by norm_num]

theorem M_v (k r : ℝ) : M.val (fun i => if i = 0 then k else r) = r * π / 180 := by
  simp only [M, val_div, val_mul, val_v, val_p, val_q]; norm_num

theorem J_v (a : Ca) (k r : ℝ) : (J a).val (fun i => if i = 0 then k else r) = (caR a).A + k * (caR a).B := by
  simp only [J, val_add, val_mul, val_v, val_q, caR, if_true]; norm_num

theorem T_v (a : Ca) (k r : ℝ) : (T a).val (fun i => if i = 0 then k else r) = J2000Century ((caR a).A + k * (caR a).B) := by
  simp only [T, val_div, val_sub, J_v, val_q, J2000Century]; norm_num

theorem plan_close {l : Trig} (hl : l.Ok) {pm : ℝ → ℝ} (hpm : PModOk pm) {y : ℝ} (hy : |y - 2000| ≤ 4000) {a : Ca} {c : List (List ℤ)} {aa : List (ℤ × ℤ)} {K : ℕ}
    (ho : evOk a c aa K = true) {out : ℝ} (h : msa l pm y a c aa out) : NearPlan (caR a) (tblR c) (aaR aa) y out := by
  unfold evOk at ho
  simp only [Bool.and_eq_true, decide_eq_true_eq] at ho
  obtain ⟨⟨⟨⟨⟨o1, o2⟩, o3⟩, o4⟩, o5⟩, o6⟩ := ho
  obtain ⟨k, r, hm, hr⟩ := h
  obtain ⟨n, m, hk, h1, h2, h3, h4, h5⟩ := mean_close hl hpm hy o3 o4 o5 hm
  have b := (within_bound hl (env_k h3 h4 h5) hr o6).2
  rw [val_add, J_v] at b
  have b' := b.trans (show _ ≤ (3e-9 : ℝ) by norm_num)
  clear b
  have s := sumA_v (fun i => if i = 0 then k else (caR a).M0 + k * (caR a).M1 - m * 360) (T a) M c aa o1 o2
  rw [T_v, M_v] at s
  obtain ⟨t, ht⟩ := anomaly_turn ((caR a).M0 + k * (caR a).M1) m
  have ev : evK (caR a) (tblR c) (aaR aa) n =
      some ((caR a).A + k * (caR a).B + (sumA (T a) M c aa).val fun i => if i = 0 then k else (caR a).M0 + k * (caR a).M1 - m * 360) := by
    unfold evK
    rw [← hk, ht, sumA_turn, s, Option.map_some]
  refine ⟨n, h1, ⟨_, ev, b'⟩, fun hf => ?_⟩
  rw [msa_evK, ← h2 hf]
  exact ⟨_, ev, b'⟩

def elOk (e : List (List ℤ)) : Bool := decide (e.length % 2 = 1) && within (envK 13000) (sum (T micA) M e) (2 ^ 100) 68056473384187692692674921486

theorem micA_v : caR Planetary64.micA = Planetary.micA := by unfold caR Planetary64.micA Planetary.micA; norm_num
theorem mscA_v : caR Planetary64.mscA = Planetary.mscA := by unfold caR Planetary64.mscA Planetary.mscA; norm_num
theorem vicA_v : caR Planetary64.vicA = Planetary.vicA := by unfold caR Planetary64.vicA Planetary.vicA; norm_num
theorem moA_v : caR Planetary64.moA = Planetary.moA := by unfold caR Planetary64.moA Planetary.moA; norm_num
theorem joA_v : caR Planetary64.joA = Planetary.joA := by unfold caR Planetary64.joA Planetary.joA; norm_num
theorem soA_v : caR Planetary64.soA = Planetary.soA := by unfold caR Planetary64.soA Planetary.soA; norm_num
theorem scA_v : caR Planetary64.scA = Planetary.scA := by unfold caR Planetary64.scA Planetary.scA; norm_num
theorem uoA_v : caR Planetary64.uoA = Planetary.uoA := by unfold caR Planetary64.uoA Planetary.uoA; norm_num
theorem noA_v : caR Planetary64.noA = Planetary.noA := by unfold caR Planetary64.noA Planetary.noA; norm_num
theorem jaa_v : aaR Planetary64.jaa = Planetary.jaa := by unfold aaR Planetary64.jaa Planetary.jaa; norm_num
theorem saa_v : aaR Planetary64.saa = Planetary.saa := by unfold aaR Planetary64.saa Planetary.saa; norm_num
theorem uaa_v : aaR Planetary64.uaa = Planetary.uaa := by unfold aaR Planetary64.uaa Planetary.uaa; norm_num
theorem naa_v : aaR Planetary64.naa = Planetary.naa := by unfold aaR Planetary64.naa Planetary.naa; norm_num
theorem micB_v : tblR Planetary64.micB = Planetary.micB := by unfold tblR rowR Planetary64.micB Planetary.micB; norm_num
theorem mscB_v : tblR Planetary64.mscB = Planetary.mscB := by unfold tblR rowR Planetary64.mscB Planetary.mscB; norm_num
theorem vicB_v : tblR Planetary64.vicB = Planetary.vicB := by unfold tblR rowR Planetary64.vicB Planetary.vicB; norm_num
theorem moB_v : tblR Planetary64.moB = Planetary.moB := by unfold tblR rowR Planetary64.moB Planetary.moB; norm_num
theorem joB_v : tblR Planetary64.joB = Planetary.joB := by unfold tblR rowR Planetary64.joB Planetary.joB; norm_num
theorem soB_v : tblR Planetary64.soB = Planetary.soB := by unfold tblR rowR Planetary64.soB Planetary.soB; norm_num
theorem scB_v : tblR Planetary64.scB = Planetary.scB := by unfold tblR rowR Planetary64.scB Planetary.scB; norm_num
theorem uoB_v : tblR Planetary64.uoB = Planetary.uoB := by unfold tblR rowR Planetary64.uoB Planetary.uoB; norm_num
theorem noB_v : tblR Planetary64.noB = Planetary.noB := by unfold tblR rowR Planetary64.noB Planetary.noB; norm_num
theorem met_v : tblR Planetary64.met = Planetary.met := by unfold tblR rowR Planetary64.met Planetary.met; norm_num
theorem mee_v : tblR Planetary64.mee = Planetary.mee := by unfold tblR rowR Planetary64.mee Planetary.mee; norm_num
theorem mwt_v : tblR Planetary64.mwt = Planetary.mwt := by unfold tblR rowR Planetary64.mwt Planetary.mwt; norm_num
theorem mwe_v : tblR Planetary64.mwe = Planetary.mwe := by unfold tblR rowR Planetary64.mwe Planetary.mwe; norm_num
theorem ms2_v : tblR Planetary64.ms2 = Planetary.ms2 := by unfold tblR rowR Planetary64.ms2 Planetary.ms2; norm_num

theorem sumA_nil (T M : ℝ) (c : List (List ℝ)) : Planetary.sumA T M c [] = Planetary.sum T M c := by
  unfold Planetary.sumA
  have : ∀ o : Option ℝ, o.bind (Planetary.addLoop T [] []) = o := by
    intro o; cases o <;> simp [Planetary.addLoop]
  simp [this]

theorem ms_msa (y : ℝ) (a : Planetary.Ca) (c : List (List ℝ)) : Planetary.ms y a c = Planetary.msa y a c [] := by
  unfold Planetary.ms Planetary.msa
  simp only [sumA_nil]

/-- The greatest elongation number k in degrees. -/
noncomputable def elK (e : List (List ℝ)) (k : ℝ) : Option ℝ :=
  Planetary.sum (J2000Century (Planetary.micA.A + k * Planetary.micA.B)) (pmod (Planetary.micA.M0 + k * Planetary.micA.M1) 360 * π / 180) e

/-- `out` is within 2·10⁻¹⁰ degree of an elongation of the formulas, chosen likewise. -/
def NearElong (e : List (List ℝ)) (y out : ℝ) : Prop :=
  ∃ n : ℤ, |kArg y Planetary.micA - n| ≤ 1 / 2 + 1e-10 ∧ (∃ v, elK e n = some v ∧ |out - v| ≤ 2e-10) ∧
    (1e-10 < |Int.fract (kArg y Planetary.micA) - 1 / 2| → ∃ v, elK e ⌊kArg y Planetary.micA + 1 / 2⌋ = some v ∧ |out - v| ≤ 2e-10)

theorem elong_close {l : Trig} (hl : l.Ok) {pm : ℝ → ℝ} (hpm : PModOk pm) {y : ℝ} (hy : |y - 2000| ≤ 4000) {e : List (List ℤ)} (ho : elOk e = true)
    (o3 : 1462000 * 10000000 ≤ (((13000 : ℕ) : ℤ) - 1) * Planetary64.micA.B) (o4 : caOk Planetary64.micA = true) (o5 : anomOk Planetary64.micA 13000 = true)
    {out : ℝ} (h : elong l pm y e out) : NearElong (tblR e) y out := by
  unfold elOk at ho
  simp only [Bool.and_eq_true, decide_eq_true_eq] at ho
  obtain ⟨o1, o6⟩ := ho
  obtain ⟨k, r, hm, hr⟩ := h
  obtain ⟨n, m, hk, h1, h2, h3, h4, h5⟩ := mean_close hl hpm hy o3 o4 o5 hm
  have b := (within_bound hl (env_k h3 h4 h5) hr o6).2
  have b' := b.trans (show _ ≤ (2e-10 : ℝ) by norm_num)
  clear b
  have s := sum_v (fun i => if i = 0 then k else (caR Planetary64.micA).M0 + k * (caR Planetary64.micA).M1 - m * 360) (T Planetary64.micA) M e o1
  rw [T_v, M_v] at s
  obtain ⟨t, ht⟩ := anomaly_turn ((caR Planetary64.micA).M0 + k * (caR Planetary64.micA).M1) m
  have ev : elK (tblR e) n = some ((sum (T Planetary64.micA) M e).val fun i => if i = 0 then k else (caR Planetary64.micA).M0 + k * (caR Planetary64.micA).M1 - m * 360) := by
    unfold elK
    rw [← sumA_nil, ← micA_v, ← hk, ht, sumA_turn, sumA_nil, s]
  rw [micA_v] at h1 h2
  refine ⟨n, h1, ⟨_, ev, b'⟩, fun hf => ?_⟩
  rw [← h2 hf]
  exact ⟨_, ev, b'⟩

theorem el_elK (y : ℝ) (a : Planetary.Ca) (t e : List (List ℝ)) :
    Planetary.el y a t e = (evK Planetary.micA t [] ⌊kArg y Planetary.micA + 1 / 2⌋).bind fun j =>
      (elK e ⌊kArg y Planetary.micA + 1 / 2⌋).map fun v => (j, v * π / 180) := by
  unfold Planetary.el Planetary.mean evK elK kArg
  simp only [sumA_nil]
  rw [show (0.5 : ℝ) = 1 / 2 by norm_num]
  cases Planetary.sum _ _ t <;> cases Planetary.sum _ _ e <;> rfl

end Planetary64v

open Planetary64v

/-- The computed time `out` is within 3·10⁻⁹ day (0.26 ms) of an event which the formulas give for a date within half a period (and 10⁻¹⁰) of y,
and of the one which `f` gives unless y is within 10⁻¹⁰ period of the middle between two. -/
def TimeOk (a : Planetary.Ca) (c : List (List ℝ)) (aa : List (ℝ × ℝ)) (f : ℝ → Option ℝ) (y out : ℝ) : Prop :=
  ∃ n : ℤ, |(365.2425 * y + 1721060 - a.A) / a.B - n| ≤ 1 / 2 + 1e-10 ∧ (∃ e, evK a c aa n = some e ∧ |out - e| ≤ 3e-9) ∧
    (1e-10 < |Int.fract ((365.2425 * y + 1721060 - a.A) / a.B) - 1 / 2| → ∃ e, f y = some e ∧ |out - e| ≤ 3e-9)

set_option maxRecDepth 100000 in
/-- planetary.MercuryInfConj in double precision, for the years −2000 to 6000. -/
theorem C188_mercury_inf {l : Trig} (hl : l.Ok) {pm : ℝ → ℝ} (hpm : PModOk pm) {y : ℝ} (hy : |y - 2000| ≤ 4000) {out : ℝ}
    (h : Planetary64.msa l pm y Planetary64.micA Planetary64.micB [] out) : TimeOk Planetary.micA Planetary.micB [] Planetary.MercuryInfConj y out := by
  have := plan_close (K := 13000) hl hpm hy (by decide +kernel) h
  rw [micA_v, micB_v] at this
  obtain ⟨n, h1, h2, h3⟩ := this
  refine ⟨n, h1, by simpa [aaR] using h2, fun hf => ?_⟩
  rw [Planetary.MercuryInfConj, ms_msa]; simpa [aaR] using h3 hf

set_option maxRecDepth 100000 in
/-- planetary.MercurySupConj in double precision, for the years −2000 to 6000. -/
theorem C188_mercury_sup {l : Trig} (hl : l.Ok) {pm : ℝ → ℝ} (hpm : PModOk pm) {y : ℝ} (hy : |y - 2000| ≤ 4000) {out : ℝ}
    (h : Planetary64.msa l pm y Planetary64.mscA Planetary64.mscB [] out) : TimeOk Planetary.mscA Planetary.mscB [] Planetary.MercurySupConj y out := by
  have := plan_close (K := 13000) hl hpm hy (by decide +kernel) h
  rw [mscA_v, mscB_v] at this
  obtain ⟨n, h1, h2, h3⟩ := this
  refine ⟨n, h1, by simpa [aaR] using h2, fun hf => ?_⟩
  rw [Planetary.MercurySupConj, ms_msa]; simpa [aaR] using h3 hf

set_option maxRecDepth 100000 in
/-- planetary.VenusInfConj in double precision, for the years −2000 to 6000. -/
theorem C188_venus_inf {l : Trig} (hl : l.Ok) {pm : ℝ → ℝ} (hpm : PModOk pm) {y : ℝ} (hy : |y - 2000| ≤ 4000) {out : ℝ}
    (h : Planetary64.msa l pm y Planetary64.vicA Planetary64.vicB [] out) : TimeOk Planetary.vicA Planetary.vicB [] Planetary.VenusInfConj y out := by
  have := plan_close (K := 2600) hl hpm hy (by decide +kernel) h
  rw [vicA_v, vicB_v] at this
  obtain ⟨n, h1, h2, h3⟩ := this
  refine ⟨n, h1, by simpa [aaR] using h2, fun hf => ?_⟩
  rw [Planetary.VenusInfConj, ms_msa]; simpa [aaR] using h3 hf

set_option maxRecDepth 100000 in
/-- planetary.MarsOpp in double precision, for the years −2000 to 6000. -/
theorem C188_mars_opp {l : Trig} (hl : l.Ok) {pm : ℝ → ℝ} (hpm : PModOk pm) {y : ℝ} (hy : |y - 2000| ≤ 4000) {out : ℝ}
    (h : Planetary64.msa l pm y Planetary64.moA Planetary64.moB [] out) : TimeOk Planetary.moA Planetary.moB [] Planetary.MarsOpp y out := by
  have := plan_close (K := 1900) hl hpm hy (by decide +kernel) h
  rw [moA_v, moB_v] at this
  obtain ⟨n, h1, h2, h3⟩ := this
  refine ⟨n, h1, by simpa [aaR] using h2, fun hf => ?_⟩
  rw [Planetary.MarsOpp, ms_msa]; simpa [aaR] using h3 hf

set_option maxRecDepth 100000 in
/-- planetary.MarsStation2 in double precision, for the years −2000 to 6000. -/
theorem C188_mars_station {l : Trig} (hl : l.Ok) {pm : ℝ → ℝ} (hpm : PModOk pm) {y : ℝ} (hy : |y - 2000| ≤ 4000) {out : ℝ}
    (h : Planetary64.msa l pm y Planetary64.moA Planetary64.ms2 [] out) : TimeOk Planetary.moA Planetary.ms2 [] Planetary.MarsStation2 y out := by
  have := plan_close (K := 1900) hl hpm hy (by decide +kernel) h
  rw [moA_v, ms2_v] at this
  obtain ⟨n, h1, h2, h3⟩ := this
  refine ⟨n, h1, by simpa [aaR] using h2, fun hf => ?_⟩
  rw [Planetary.MarsStation2, ms_msa]; simpa [aaR] using h3 hf

set_option maxRecDepth 100000 in
/-- planetary.JupiterOpp in double precision, for the years −2000 to 6000. -/
theorem C188_jupiter_opp {l : Trig} (hl : l.Ok) {pm : ℝ → ℝ} (hpm : PModOk pm) {y : ℝ} (hy : |y - 2000| ≤ 4000) {out : ℝ}
    (h : Planetary64.msa l pm y Planetary64.joA Planetary64.joB Planetary64.jaa out) : TimeOk Planetary.joA Planetary.joB Planetary.jaa Planetary.JupiterOpp y out := by
  have := plan_close (K := 4000) hl hpm hy (by decide +kernel) h
  rw [joA_v, joB_v, jaa_v] at this
  obtain ⟨n, h1, h2, h3⟩ := this
  refine ⟨n, h1, h2, fun hf => ?_⟩
  exact h3 hf

set_option maxRecDepth 100000 in
/-- planetary.SaturnOpp in double precision, for the years −2000 to 6000. -/
theorem C188_saturn_opp {l : Trig} (hl : l.Ok) {pm : ℝ → ℝ} (hpm : PModOk pm) {y : ℝ} (hy : |y - 2000| ≤ 4000) {out : ℝ}
    (h : Planetary64.msa l pm y Planetary64.soA Planetary64.soB Planetary64.saa out) : TimeOk Planetary.soA Planetary.soB Planetary.saa Planetary.SaturnOpp y out := by
  have := plan_close (K := 4000) hl hpm hy (by decide +kernel) h
  rw [soA_v, soB_v, saa_v] at this
  obtain ⟨n, h1, h2, h3⟩ := this
  refine ⟨n, h1, h2, fun hf => ?_⟩
  exact h3 hf

set_option maxRecDepth 100000 in
/-- planetary.SaturnConj in double precision, for the years −2000 to 6000. -/
theorem C188_saturn_conj {l : Trig} (hl : l.Ok) {pm : ℝ → ℝ} (hpm : PModOk pm) {y : ℝ} (hy : |y - 2000| ≤ 4000) {out : ℝ}
    (h : Planetary64.msa l pm y Planetary64.scA Planetary64.scB Planetary64.saa out) : TimeOk Planetary.scA Planetary.scB Planetary.saa Planetary.SaturnConj y out := by
  have := plan_close (K := 4000) hl hpm hy (by decide +kernel) h
  rw [scA_v, scB_v, saa_v] at this
  obtain ⟨n, h1, h2, h3⟩ := this
  refine ⟨n, h1, h2, fun hf => ?_⟩
  exact h3 hf

set_option maxRecDepth 100000 in
/-- planetary.UranusOpp in double precision, for the years −2000 to 6000. -/
theorem C188_uranus_opp {l : Trig} (hl : l.Ok) {pm : ℝ → ℝ} (hpm : PModOk pm) {y : ℝ} (hy : |y - 2000| ≤ 4000) {out : ℝ}
    (h : Planetary64.msa l pm y Planetary64.uoA Planetary64.uoB Planetary64.uaa out) : TimeOk Planetary.uoA Planetary.uoB Planetary.uaa Planetary.UranusOpp y out := by
  have := plan_close (K := 4000) hl hpm hy (by decide +kernel) h
  rw [uoA_v, uoB_v, uaa_v] at this
  obtain ⟨n, h1, h2, h3⟩ := this
  refine ⟨n, h1, h2, fun hf => ?_⟩
  exact h3 hf

set_option maxRecDepth 100000 in
/-- planetary.NeptuneOpp in double precision, for the years −2000 to 6000. -/
theorem C188_neptune_opp {l : Trig} (hl : l.Ok) {pm : ℝ → ℝ} (hpm : PModOk pm) {y : ℝ} (hy : |y - 2000| ≤ 4000) {out : ℝ}
    (h : Planetary64.msa l pm y Planetary64.noA Planetary64.noB Planetary64.naa out) : TimeOk Planetary.noA Planetary.noB Planetary.naa Planetary.NeptuneOpp y out := by
  have := plan_close (K := 4000) hl hpm hy (by decide +kernel) h
  rw [noA_v, noB_v, naa_v] at this
  obtain ⟨n, h1, h2, h3⟩ := this
  refine ⟨n, h1, h2, fun hf => ?_⟩
  exact h3 hf


set_option maxRecDepth 100000 in
/-- planetary.MercuryEastElongation and MercuryWestElongation in double precision: the time as above and the elongation, before its conversion from degrees, within 2·10⁻¹⁰ degree. -/
theorem C188_elongation {l : Trig} (hl : l.Ok) {pm : ℝ → ℝ} (hpm : PModOk pm) {y : ℝ} (hy : |y - 2000| ≤ 4000) {t d t' d' : ℝ}
    (h1 : Planetary64.msa l pm y Planetary64.micA Planetary64.met [] t) (h2 : Planetary64.elong l pm y Planetary64.mee d)
    (h3 : Planetary64.msa l pm y Planetary64.micA Planetary64.mwt [] t') (h4 : Planetary64.elong l pm y Planetary64.mwe d') :
    NearPlan Planetary.micA Planetary.met [] y t ∧ NearElong Planetary.mee y d ∧ NearPlan Planetary.micA Planetary.mwt [] y t' ∧ NearElong Planetary.mwe y d' ∧
    (1e-10 < |Int.fract (kArg y Planetary.micA) - 1 / 2| →
      (∃ T D, Planetary.MercuryEastElongation y = some (T, D * π / 180) ∧ |t - T| ≤ 3e-9 ∧ |d - D| ≤ 2e-10) ∧
      ∃ T D, Planetary.MercuryWestElongation y = some (T, D * π / 180) ∧ |t' - T| ≤ 3e-9 ∧ |d' - D| ≤ 2e-10) := by
  have a1 := plan_close (K := 13000) hl hpm hy (by decide +kernel) h1
  have a2 := elong_close hl hpm hy (by decide +kernel) (by decide +kernel) (by decide +kernel) (by decide +kernel) h2
  have a3 := plan_close (K := 13000) hl hpm hy (by decide +kernel) h3
  have a4 := elong_close hl hpm hy (by decide +kernel) (by decide +kernel) (by decide +kernel) (by decide +kernel) h4
  rw [micA_v] at a1 a3
  rw [met_v] at a1
  rw [mee_v] at a2
  rw [mwt_v] at a3
  rw [mwe_v] at a4
  have n0 : aaR [] = [] := rfl
  rw [n0] at a1 a3
  refine ⟨a1, a2, a3, a4, fun hf => ?_⟩
  obtain ⟨_, _, _, b1⟩ := a1
  obtain ⟨_, _, _, b2⟩ := a2
  obtain ⟨_, _, _, b3⟩ := a3
  obtain ⟨_, _, _, b4⟩ := a4
  obtain ⟨T, e1, f1⟩ := b1 hf
  obtain ⟨D, e2, f2⟩ := b2 hf
  obtain ⟨T', e3, f3⟩ := b3 hf
  obtain ⟨D', e4, f4⟩ := b4 hf
  rw [msa_evK] at e1 e3
  refine ⟨⟨T, D, ?_, f1, f2⟩, ⟨T', D', ?_, f3, f4⟩⟩
  · rw [Planetary.MercuryEastElongation, el_elK, e1, e2]; rfl
  · rw [Planetary.MercuryWestElongation, el_elK, e3, e4]; rfl

/-- The hypotheses can be met: a PMod as assumed exists, and the program has a result for every year. -/
theorem C188_example : ∃ pm : ℝ → ℝ, PModOk pm ∧ ∃ l : Trig, l.Ok ∧ ∀ y, ∃ out, Planetary64.msa l pm y Planetary64.moA Planetary64.moB [] out := by
  refine ⟨fun x => x - ⌊x / 360⌋ * 360, fun x _ => ?_, ?_⟩
  · have h1 := Int.floor_le (x / 360)
    have h2 := Int.lt_floor_add_one (x / 360)
    dsimp only
    exact ⟨by linarith, by linarith, ⌊x / 360⌋, by rw [sub_self, abs_zero]; norm_num⟩
  · refine ⟨_, trig_ok, fun y => ?_⟩
    set l : Trig := ⟨fun x => fl (Real.sin x), fun x => fl (Real.cos x)⟩
    obtain ⟨n, hn⟩ := run_exists l (fun _ => y) (Planetary64.num Planetary64.moA)
    obtain ⟨m, hm⟩ := run_exists l (fun _ => ((⌊fl (fl (n / fl ((Planetary64.moA.B : ℝ) / 10000000)) + 0.5)⌋ : ℤ) : ℝ)) (Planetary64.anom Planetary64.moA)
    obtain ⟨o, ho⟩ := run_exists l (fun i => if i = 0 then ((⌊fl (fl (n / fl ((Planetary64.moA.B : ℝ) / 10000000)) + 0.5)⌋ : ℤ) : ℝ) else m - ⌊m / 360⌋ * 360)
      (Planetary64.J Planetary64.moA + Planetary64.sumA (Planetary64.T Planetary64.moA) Planetary64.M Planetary64.moB [])
    exact ⟨o, _, _, ⟨n, m, hn, rfl, hm, rfl⟩, ho⟩

end Verif.Props
