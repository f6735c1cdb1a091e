import Verif.Model.Eclipse
import Verif.Props.Moon64
import Verif.Lemmas.TrigNum
/-
Eclipses in double precision: the type, the time and the geometry against the same formulas in exact arithmetic.
-/
namespace Verif.Props

open Real Verif.Model Verif.Go.F64 Verif.Go.F64.Ex

/-- Variable 0 is the first argument, the others the second. -/
def two (a b : ℝ) : ℕ → ℝ := fun i => if i = 0 then a else b

/-- A comparison a < b of two float64 expressions. -/
def Less (l : Trig) (ρ : ℕ → ℝ) (a b : Ex) (t : Bool) : Prop := ∃ x y, Run l ρ a x ∧ Run l ρ b y ∧ (t = true ↔ x < y)

/-- What `g` may return.  v3/eclipse/eclipse.go:15-75. -/
def GRun (l : Trig) (k jm : ℝ) (jmax : Ex) (r : Eclipse.G) : Prop :=
  ∃ t : Bool, Less l (two k jm) (q 36 100) (abs (sin Eclipse64.F)) t ∧
    (t = true → r = ⟨false, 0, 0, 0, 0⟩) ∧
    (t = false → r.eclipse = true ∧ Run l (two k jm) jmax r.jmax ∧ Run l (two k jm) Eclipse64.γ r.γ ∧ Run l (two k jm) Eclipse64.u r.u ∧
      Run l (two k jm) Eclipse64.M' r.M')

/-- math.Sqrt: correctly rounded, nothing is said of a negative argument. -/
def SqrtRun (y s : ℝ) : Prop := 0 ≤ y → s = fl √y

/-- The type of a solar eclipse from the comparisons made.  v3/eclipse/eclipse.go:126-151.  The comparisons are |γ| > 1.5433 + u, |γ| < 0.9972,
|γ| < 1.026, |γ| < 0.9972 + |u|, u < 0, u > 0.0047, u < ω. -/
def solarKind (t1 t2 t3 t4 t5 t6 t7 : Bool) : Eclipse.Kind :=
  if t1 then .None
  else if ¬ t2 then (if t3 then (if t4 then .Total else .Partial) else .Partial)
  else if t5 then .Total
  else if t6 then .Annular
  else if t7 then .AnnularTotal else .Annular

/-- The part of `Solar` after the call of `g`.  v3/eclipse/eclipse.go:122-156.  Variable 0 is γ, variable 1 is u. -/
def SolarOfRun (l : Trig) (r : Eclipse.G) (s : Eclipse.SolarResult) : Prop :=
  let ρ := two r.γ r.u
  s.jmax = r.jmax ∧ s.γ = r.γ ∧ s.u = r.u ∧ Run l ρ (v 1 + q 5461 10000) s.p ∧
  (r.eclipse = false → s.kind = .None ∧ s.central = false ∧ s.mag = 0) ∧
  (r.eclipse = true → ∃ (t1 t2 t3 t4 t5 t6 t7 : Bool) (y w ω : ℝ),
    Less l ρ (q 15433 10000 + v 1) (abs (v 0)) t1 ∧
    Less l ρ (abs (v 0)) (q 9972 10000) t2 ∧
    Less l ρ (abs (v 0)) (q 1026 1000) t3 ∧
    Less l ρ (abs (v 0)) (q 9972 10000 + abs (v 1)) t4 ∧
    Less l ρ (v 1) (q 0 1) t5 ∧
    Less l ρ (q 47 10000) (v 1) t6 ∧
    Run l ρ (q 1 1 - v 0 * v 0) y ∧ SqrtRun y w ∧ Run l (fun _ => w) (q 464 100000 * v 0) ω ∧ (t7 = true ↔ s.u < ω) ∧
    s.kind = solarKind t1 t2 t3 t4 t5 t6 t7 ∧
    s.central = (!t1 && t2) ∧
    (s.kind = .Partial → Run l ρ ((q 15433 10000 + v 1 - abs (v 0)) / (q 5461 10000 + q 2 1 * v 1)) s.mag) ∧
    (s.kind ≠ .Partial → s.mag = 0))

/-- What `Solar` may return. -/
def SolarRun (l : Trig) (year : ℝ) (s : Eclipse.SolarResult) : Prop :=
  ∃ x z jm r, Run l (fun _ => year) (snapPhase (q 0 4)) x ∧ Run l (fun _ => year) (q 0 4) z ∧ SnapRun l snapPhase (q 0 4) Moonphase64.mean year jm ∧
    GRun l (fl (⌊x⌋ + z)) jm Eclipse64.jmaxSolar r ∧ SolarOfRun l r s

/-! The expressions have the values of the model in exact arithmetic. -/

namespace Eclipse64v

open Eclipse64

variable {ρ : ℕ → ℝ} {t : ℝ} (hT : T.val ρ = t)

theorem T_v (k jm : ℝ) : T.val (two k jm) = k * Moonphase.ck := by
  simp only [T, val_mul, val_q, val_v, two, Moonphase.ck]; norm_num

include hT

theorem F_v : F.val ρ = Eclipse.argF t := by
  simp only [F, horner, val_add, val_mul, val_p, hT, Eclipse.argF, hornerR, List.foldr, deg, Moonphase.ck]; norm_num; ring
theorem E_v : E.val ρ = Eclipse.argE t := by
  simp only [E, horner, val_add, val_mul, val_q, hT, Eclipse.argE, hornerR, List.foldr]; norm_num
theorem M_v : M.val ρ = Eclipse.argM t := by
  simp only [M, horner, val_add, val_mul, val_p, hT, Eclipse.argM, hornerR, List.foldr, deg, Moonphase.ck]; norm_num; ring
theorem M'_v : M'.val ρ = Eclipse.argM' t := by
  simp only [M', horner, val_add, val_mul, val_p, hT, Eclipse.argM', hornerR, List.foldr, deg, Moonphase.ck]; norm_num; ring
theorem Ω_v : Ω.val ρ = Eclipse.argΩ t := by
  simp only [Ω, horner, val_add, val_mul, val_p, hT, Eclipse.argΩ, hornerR, List.foldr, deg, Moonphase.ck]; norm_num; ring
theorem A1_v : A1.val ρ = Eclipse.argA1 t := by
  simp only [A1, horner, val_add, val_mul, val_p, hT, Eclipse.argA1, hornerR, List.foldr, deg, Moonphase.ck]; norm_num; ring
theorem F1_v : F1.val ρ = Eclipse.argF t - 0.02665 * deg * Real.sin (Eclipse.argΩ t) := by
  simp only [F1, sΩ, val_sub, val_mul, val_p, val_sin, F_v hT, Ω_v hT, deg]; push_cast; ring

theorem γ_v : γ.val ρ = Eclipse.gammaOf (Eclipse.argE t) (Eclipse.argM t) (Eclipse.argM' t) (Eclipse.argF t - 0.02665 * deg * Real.sin (Eclipse.argΩ t)) := by
  rw [← F1_v hT, ← E_v hT, ← M_v hT, ← M'_v hT]
  simp only [γ, P, Q, W, sF1, cF1, val_sumFrom, List.map, List.sum_cons, List.sum_nil, val_add, val_sub, val_mul, val_q, val_sin, val_cos, val_abs]
  generalize E.val ρ = E
  generalize M.val ρ = M
  generalize M'.val ρ = M'
  generalize F1.val ρ = F1
  simp only [Eclipse.gammaOf, Eclipse.P, Eclipse.Q]
  push_cast
  norm_num
  left
  ring

theorem u_v : u.val ρ = Eclipse.uOf (Eclipse.argE t) (Eclipse.argM t) (Eclipse.argM' t) := by
  rw [← E_v hT, ← M_v hT, ← M'_v hT]
  simp only [u, val_sumFrom, List.map, List.sum_cons, List.sum_nil, val_add, val_mul, val_q, val_cos]
  generalize E.val ρ = E
  generalize M.val ρ = M
  generalize M'.val ρ = M'
  simp only [Eclipse.uOf]
  push_cast
  norm_num
  ring

end Eclipse64v

theorem g64_elements (k jm c1 c2 : ℝ) (h : ¬ |Real.sin (Eclipse.argF (k * Moonphase.ck))| > 0.36) :
    (Eclipse.g k jm c1 c2).eclipse = true ∧
    (Eclipse.g k jm c1 c2).γ = Eclipse64.γ.val (two k jm) ∧ (Eclipse.g k jm c1 c2).u = Eclipse64.u.val (two k jm) ∧
    (Eclipse.g k jm c1 c2).M' = Eclipse64.M'.val (two k jm) := by
  have hT := Eclipse64v.T_v k jm
  rw [Eclipse64v.γ_v hT, Eclipse64v.u_v hT, Eclipse64v.M'_v hT]
  unfold Eclipse.g
  rw [if_neg h]
  exact ⟨rfl, rfl, rfl, rfl⟩

theorem g_jmax_solar (k jm : ℝ) (h : ¬ |Real.sin (Eclipse.argF (k * Moonphase.ck))| > 0.36) :
    (Eclipse.g k jm (-0.4075) 0.1721).jmax = Eclipse64.jmaxSolar.val (two k jm) := by
  have hT := Eclipse64v.T_v k jm
  unfold Eclipse.g
  rw [if_neg h]
  simp only [Eclipse64.jmaxSolar, Eclipse64.sΩ, val_sumFrom, List.map, List.sum_cons, List.sum_nil, val_add, val_sub, val_mul, val_q, val_sin, val_v,
    Eclipse64v.F1_v hT, Eclipse64v.E_v hT, Eclipse64v.M_v hT, Eclipse64v.M'_v hT, Eclipse64v.Ω_v hT, Eclipse64v.A1_v hT, series]
  generalize Eclipse.argE (k * Moonphase.ck) = E
  generalize Eclipse.argM (k * Moonphase.ck) = M
  generalize Eclipse.argM' (k * Moonphase.ck) = M'
  generalize Eclipse.argΩ (k * Moonphase.ck) = Ω
  generalize Eclipse.argF (k * Moonphase.ck) - 0.02665 * deg * Real.sin Ω = F1
  generalize Eclipse.argA1 (k * Moonphase.ck) = A1
  simp only [two]
  push_cast
  norm_num
  ring

theorem g_jmax_lunar (k jm : ℝ) (h : ¬ |Real.sin (Eclipse.argF (k * Moonphase.ck))| > 0.36) :
    (Eclipse.g k jm (-0.4065) 0.1727).jmax = Eclipse64.jmaxLunar.val (two k jm) := by
  have hT := Eclipse64v.T_v k jm
  unfold Eclipse.g
  rw [if_neg h]
  simp only [Eclipse64.jmaxLunar, Eclipse64.sΩ, val_sumFrom, List.map, List.sum_cons, List.sum_nil, val_add, val_sub, val_mul, val_q, val_sin, val_v,
    Eclipse64v.F1_v hT, Eclipse64v.E_v hT, Eclipse64v.M_v hT, Eclipse64v.M'_v hT, Eclipse64v.Ω_v hT, Eclipse64v.A1_v hT, series]
  generalize Eclipse.argE (k * Moonphase.ck) = E
  generalize Eclipse.argM (k * Moonphase.ck) = M
  generalize Eclipse.argM' (k * Moonphase.ck) = M'
  generalize Eclipse.argΩ (k * Moonphase.ck) = Ω
  generalize Eclipse.argF (k * Moonphase.ck) - 0.02665 * deg * Real.sin Ω = F1
  generalize Eclipse.argA1 (k * Moonphase.ck) = A1
  simp only [two]
  push_cast
  norm_num
  ring

/-! Comparisons and division. -/

theorem less_iff {l : Trig} (hl : l.Ok) {ρ ρ' : ℕ → ℝ} {env : List (ℕ × ℕ)} (henv : ∀ i p, env[i]? = some p → Fits (ρ i) (ρ' i) p) {a b : Ex} {t : Bool}
    (h : Less l ρ' a b t) {m ε : ℕ} (ha : within env a m ε = true) (hb : within env b m ε = true) {δ : ℝ} (hε : 2 * (ε : ℝ) / 2 ^ 128 ≤ δ)
    (hm : δ < |a.val ρ - b.val ρ|) : t = true ↔ a.val ρ < b.val ρ := by
  obtain ⟨x, y, hx, hy, ht⟩ := h
  have h1 := (within_bound hl henv hx ha).2
  have h2 := (within_bound hl henv hy hb).2
  rw [ht]
  have h3 : 2 * (ε : ℝ) / 2 ^ 128 = ε / 2 ^ 128 + ε / 2 ^ 128 := by ring
  rw [abs_le] at h1 h2
  rw [h3] at hε
  generalize (ε : ℝ) / 2 ^ 128 = e at *
  rcases le_total (a.val ρ) (b.val ρ) with hc | hc
  · rw [abs_of_nonpos (by linarith)] at hm
    constructor <;> intro <;> linarith
  · rw [abs_of_nonneg (by linarith)] at hm
    constructor <;> intro <;> linarith

theorem two_env {a b a' b' : ℝ} {p q : ℕ × ℕ} (h : Fits a a' p) (h' : Fits b b' q) :
    ∀ i r, [p, q][i]? = some r → Fits (two a b i) (two a' b' i) r := by
  intro i r hr
  rcases i with _ | _ | i
  · simp at hr; subst hr; exact h
  · simp at hr; subst hr; exact h'
  · simp at hr

theorem fits_zero (p : ℕ × ℕ) : Fits 0 0 p := ⟨by simp; positivity, by simp; positivity⟩

theorem run_div {l : Trig} {ρ : ℕ → ℝ} {a b : Ex} {x : ℝ} (h : Run l ρ (a / b) x) : ∃ y z, Run l ρ a y ∧ Run l ρ b z ∧ x = fl (y / z) := by
  change Run l ρ (Ex.div a b) x at h
  cases h with
  | div h1 h2 => exact ⟨_, _, h1, h2, rfl⟩

theorem div_close {x y r s e e' m : ℝ} (hx : |x - r| ≤ e) (hy : |y - s| ≤ e') (hs : 12 / 25 ≤ s) (he : e ≤ 1 / 100) (he' : e' ≤ 1 / 100) (hr : |r| ≤ m)
    (hm : 1 ≤ m) : |fl (x / y) - r / s| ≤ 5 / 2 * (e + 2 * m * e') + m / 2 ^ 50 := by
  have e0 : 0 ≤ e := (abs_nonneg _).trans hx
  have e0' : 0 ≤ e' := (abs_nonneg _).trans hy
  have hy' := abs_le.mp hy
  have yp : 47 / 100 ≤ y := by linarith
  have sp : 0 < s := by linarith
  have y0 : 0 < y := by linarith
  have k : |x / y - r / s| ≤ 5 / 2 * (e + 2 * m * e') := by
    have : x / y - r / s = ((x - r) - r / s * (y - s)) / y := by field_simp; ring
    rw [this, abs_div, abs_of_pos y0, div_le_iff₀ y0]
    have t1 : |r / s| ≤ 21 / 10 * m := by
      rw [abs_div, abs_of_pos sp, div_le_iff₀ sp]
      nlinarith
    have t2 : |r / s * (y - s)| ≤ 21 / 10 * m * e' := by
      rw [abs_mul]; exact mul_le_mul t1 hy (abs_nonneg _) (by linarith)
    have t3 : |x - r - r / s * (y - s)| ≤ e + 21 / 10 * m * e' := by
      have := abs_sub (x - r) (r / s * (y - s)); linarith
    have t4 : 0 ≤ m * e' := by positivity
    have t5 : (e + 2 * m * e') * (47 / 100) ≤ (e + 2 * m * e') * y := mul_le_mul_of_nonneg_left yp (by linarith)
    linarith
  have k2 := fl_err (x / y)
  have k3 : |x / y| ≤ 4 * m := by
    have h1 : |x| ≤ m + e := by
      have := abs_add_le (x - r) r
      rw [sub_add_cancel] at this
      linarith
    rw [abs_div, abs_of_pos y0, div_le_iff₀ y0]
    nlinarith
  have k4 : |x / y| / 2 ^ 53 ≤ m / 2 ^ 51 := by
    rw [show m / 2 ^ 51 = (4 * m) / 2 ^ 53 by ring]
    gcongr
  have k5 : (1 : ℝ) / 2 ^ 128 ≤ m / 2 ^ 51 := by
    have : (1 : ℝ) / 2 ^ 51 ≤ m / 2 ^ 51 := by gcongr
    refine le_trans ?_ this
    norm_num
  have k6 := abs_add_le (fl (x / y) - x / y) (x / y - r / s)
  rw [sub_add_sub_cancel] at k6
  have k7 : m / 2 ^ 50 = m / 2 ^ 51 + m / 2 ^ 51 := by ring
  linarith

/-- The square root, where the argument is not too near zero. -/
theorem sqrt_close {y y0 e w : ℝ} (h : |y - y0| ≤ e) (h0 : e ≤ y0) (he : 0 < e) (hw : SqrtRun y w) : 0 ≤ w ∧ |w - √y0| * √y0 ≤ e + (y0 + e) / 2 ^ 52 + √y0 / 2 ^ 128 := by
  have hy := abs_le.mp h
  have yp : 0 ≤ y := by linarith
  have y0p : 0 < y0 := by linarith
  rw [hw yp]
  have sp : 0 < √y0 := sqrt_pos.mpr y0p
  have s1 : 0 ≤ √y := sqrt_nonneg y
  refine ⟨?_, ?_⟩
  · have := fl_mono s1
    rwa [fl_zero] at this
  · have k : |√y - √y0| * √y0 ≤ e := by
      have e1 : (√y - √y0) * (√y + √y0) = y - y0 := by
        have a := mul_self_sqrt yp
        have b := mul_self_sqrt y0p.le
        linarith
      have e2 : |√y - √y0| * (√y + √y0) = |y - y0| := by
        rw [← e1, abs_mul, abs_of_pos (a := √y + √y0) (by linarith)]
      have : |√y - √y0| * √y0 ≤ |√y - √y0| * (√y + √y0) := by
        apply mul_le_mul_of_nonneg_left (by linarith) (abs_nonneg _)
      linarith
    have k2 := fl_err (√y)
    rw [abs_of_nonneg s1] at k2
    have k3 : √y * √y0 ≤ y0 + e := by
      have a := mul_self_sqrt yp
      have b := mul_self_sqrt y0p.le
      nlinarith [sq_nonneg (√y - √y0)]
    have k4 : |fl √y - √y0| ≤ |fl √y - √y| + |√y - √y0| := by
      have := abs_add_le (fl √y - √y) (√y - √y0)
      rwa [sub_add_sub_cancel] at this
    have k5 : |fl √y - √y| * √y0 ≤ (√y / 2 ^ 53 + 1 / 2 ^ 128) * √y0 := mul_le_mul_of_nonneg_right k2 sp.le
    have k6 : |fl √y - √y0| * √y0 ≤ (|fl √y - √y| + |√y - √y0|) * √y0 := mul_le_mul_of_nonneg_right k4 sp.le
    have k7 : (√y / 2 ^ 53 + 1 / 2 ^ 128) * √y0 = √y * √y0 / 2 ^ 53 + √y0 / 2 ^ 128 := by ring
    have k8 : √y * √y0 / 2 ^ 53 ≤ (y0 + e) / 2 ^ 52 := by
      rw [show (y0 + e) / 2 ^ 52 = (2 * (y0 + e)) / 2 ^ 53 by ring]
      exact div_le_div_of_nonneg_right (by linarith) (by positivity)
    linarith

/-! The elements which `g` computes. -/

/-- What is computed for the elements r₀ of an eclipse. -/
structure GClose (r0 r : Eclipse.G) : Prop where
  eclipse : r.eclipse = r0.eclipse
  jmax : |r.jmax - r0.jmax| ≤ 1.1e-8
  γ : r0.eclipse = true → Fits r0.γ r.γ (109000000000000000000, 578480023765595387887736832634)
  u : r0.eclipse = true → Fits r0.u r.u (2 ^ 64 / 32, 1701411834604692317316873037)
  M' : r0.eclipse = true → Fits r0.M' r.M' (334000 * 2 ^ 64, 102084710076281539039012382229)
  none : r0.eclipse = false → r.jmax = r0.jmax ∧ r.γ = r0.γ ∧ r.u = r0.u

theorem g_close {l : Trig} (hl : l.Ok) {k jm jm' c1 c2 : ℝ} (hk : |k| ≤ 49476) (hj : |jm| ≤ 3913000) (hjm : |jm' - jm| ≤ 2e-9) {jE : Ex} {r : Eclipse.G}
    (hE : ¬ |Real.sin (Eclipse.argF (k * Moonphase.ck))| > 0.36 → (Eclipse.g k jm c1 c2).jmax = jE.val (two k jm))
    (hw : within [(49476 * 2 ^ 64, 0), (3913000 * 2 ^ 64, 680564733841876926926749214864)] jE (2 ^ 100) 3743106036130323098097120681749 = true)
    (hc : 1e-9 < |(|Real.sin (Eclipse.argF (k * Moonphase.ck))|) - 0.36|)
    (h : GRun l k jm' jE r) : GClose (Eclipse.g k jm c1 c2) r := by
  have henv : ∀ i p, [(49476 * 2 ^ 64, 0), (3913000 * 2 ^ 64, 680564733841876926926749214864)][i]? = some p → Fits (two k jm i) (two k jm' i) p := by
    apply two_env
    · refine ⟨?_, by simp⟩
      push_cast
      norm_num at *
      exact hk
    · refine ⟨?_, hjm.trans ?_⟩
      · push_cast
        norm_num at *
        exact hj
      · push_cast
        norm_num
  obtain ⟨t, h1, h2, h3⟩ := h
  have hT := Eclipse64v.T_v k jm
  have e1 : (q 36 100).val (two k jm) = 0.36 := by rw [val_q]; norm_num
  have e2 : (Ex.abs (Ex.sin Eclipse64.F)).val (two k jm) = |Real.sin (Eclipse.argF (k * Moonphase.ck))| := by
    rw [val_abs, val_sin, Eclipse64v.F_v hT]
  have ht := less_iff hl henv h1 (m := 2 ^ 64) (ε := 102084710076281539039012382229) (by decide +kernel) (by decide +kernel) (δ := 1e-9) (by norm_num)
    (by rw [e1, e2, abs_sub_comm]; exact hc)
  rw [e1, e2] at ht
  by_cases hb : |Real.sin (Eclipse.argF (k * Moonphase.ck))| > 0.36
  · have hg : Eclipse.g k jm c1 c2 = ⟨false, 0, 0, 0, 0⟩ := by unfold Eclipse.g; rw [if_pos hb]
    have := h2 (ht.mpr hb)
    rw [this, hg]
    exact ⟨rfl, by norm_num, by simp, by simp, by simp, fun _ => ⟨rfl, rfl, rfl⟩⟩
  · obtain ⟨g1, g2, g3, g4⟩ := g64_elements k jm c1 c2 hb
    have htf : t = false := by
      rcases t with _ | _
      · rfl
      · exact absurd (ht.mp rfl) hb
    obtain ⟨r1, r2, r3, r4, r5⟩ := h3 htf
    refine ⟨by rw [r1, g1], ?_, fun _ => ?_, fun _ => ?_, fun _ => ?_, fun h => by rw [g1] at h; cases h⟩
    · rw [hE hb]
      refine (within_bound hl henv r2 hw).2.trans (by norm_num)
    · rw [g2]; exact within_bound hl henv r3 (by decide +kernel)
    · rw [g3]; exact within_bound hl henv r4 (by decide +kernel)
    · rw [g4]; exact within_bound hl henv r5 (by decide +kernel)

/-! Solar eclipses. -/

/-- None of the comparisons which are made on the way is within 10⁻⁸ of equality. -/
structure SolarClear (r : Eclipse.G) : Prop where
  shadow : 1e-8 < |(|r.γ|) - (1.5433 + r.u)|
  axis : 1e-8 < |(|r.γ|) - 0.9972|
  off : 0.9972 ≤ |r.γ| → 1e-8 < |(|r.γ|) - 1.026| ∧ 1e-8 < |(|r.γ|) - (0.9972 + |r.u|)|
  on : |r.γ| < 0.9972 → 1e-8 < |r.u| ∧ 1e-8 < |r.u - 0.0047| ∧ 1e-8 < |r.u - 0.00464 * √(1 - r.γ * r.γ)|

/-- The same eclipse: the type and the flag agree, the time is within 1.1·10⁻⁸ day, the geometry within 2·10⁻⁹ Earth radii, the magnitude within 6·10⁻⁹. -/
structure SolarClose (s0 s : Eclipse.SolarResult) : Prop where
  kind : s.kind = s0.kind
  central : s.central = s0.central
  jmax : |s.jmax - s0.jmax| ≤ 1.1e-8
  γ : |s.γ - s0.γ| ≤ 2e-9
  u : |s.u - s0.u| ≤ 1e-11
  p : |s.p - s0.p| ≤ 1e-11
  mag : |s.mag - s0.mag| ≤ 6e-9

theorem solarOf_kind (r : Eclipse.G) (h : r.eclipse = true) {t1 t2 t3 t4 t5 t6 t7 : Bool}
    (h1 : t1 = true ↔ 1.5433 + r.u < |r.γ|) (h2 : t2 = true ↔ |r.γ| < 0.9972)
    (h3 : 0.9972 ≤ |r.γ| → ((t3 = true ↔ |r.γ| < 1.026) ∧ (t4 = true ↔ |r.γ| < 0.9972 + |r.u|)))
    (h5 : |r.γ| < 0.9972 → ((t5 = true ↔ r.u < 0) ∧ (t6 = true ↔ 0.0047 < r.u) ∧ (t7 = true ↔ r.u < 0.00464 * √(1 - r.γ * r.γ)))) :
    (Eclipse.solarOf r).kind = solarKind t1 t2 t3 t4 t5 t6 t7 ∧ (Eclipse.solarOf r).central = (!t1 && t2) := by
  unfold Eclipse.solarOf
  simp only [h, Bool.true_eq_false, if_false]
  by_cases c1 : 1.5433 + r.u < |r.γ|
  · have := h1.mpr c1
    subst this
    rw [if_pos (by simpa using c1)]
    simp [solarKind]
  · have : t1 = false := by rcases t1 with _ | _; rfl; exact absurd (h1.mp rfl) c1
    subst this
    rw [if_neg (by simpa using c1)]
    by_cases c2 : |r.γ| < 0.9972
    · have := h2.mpr c2
      subst this
      obtain ⟨h5, h6, h7⟩ := h5 c2
      simp only [solarKind, c2, not_true_eq_false, if_false, gt_iff_lt, ← h5, ← h6, ← h7]
      simp
    · have : t2 = false := by rcases t2 with _ | _; rfl; exact absurd (h2.mp rfl) c2
      subst this
      obtain ⟨h3, h4⟩ := h3 (not_lt.mp c2)
      simp only [solarKind, c2, not_false_eq_true, if_true, ← h3, ← h4]
      simp

theorem omega_less {l : Trig} (hl : l.Ok) {γ u0 u y w ω : ℝ} (hh : |γ| < 0.9972) (hy : |y - (1 - γ * γ)| ≤ 3e-8) (hw : SqrtRun y w)
    (hω : Run l (fun _ => w) (q 464 100000 * v 0) ω) (hu : |u - u0| ≤ 1e-11) (d : 1e-8 < |u0 - 0.00464 * √(1 - γ * γ)|) :
    u < ω ↔ u0 < 0.00464 * √(1 - γ * γ) := by
  have yb : 0.005 ≤ 1 - γ * γ := by
    have := abs_mul_abs_self γ
    have := abs_nonneg γ
    norm_num at hh ⊢
    nlinarith
  have yb' : 1 - γ * γ ≤ 1 := by nlinarith [mul_self_nonneg γ]
  obtain ⟨w0, hw'⟩ := sqrt_close hy (le_trans (by norm_num) yb) (by norm_num) hw
  clear hy hh hw
  generalize 1 - γ * γ = Y at *
  have sY : 0.07 ≤ √Y := by
    apply le_sqrt_of_sq_le
    refine le_trans (by norm_num) yb
  have sY' : √Y ≤ 1 := by rw [sqrt_le_one]; exact yb'
  have k2 : (3e-8 : ℝ) + (Y + 3e-8) / 2 ^ 52 + √Y / 2 ^ 128 ≤ 4e-8 := by
    have a1 : (Y + 3e-8) / 2 ^ 52 ≤ 2 / 2 ^ 52 := by
      have : Y + 3e-8 ≤ 2 := by norm_num; linarith
      exact div_le_div_of_nonneg_right this (by positivity)
    have a2 : √Y / 2 ^ 128 ≤ 1 / 2 ^ 128 := div_le_div_of_nonneg_right sY' (by positivity)
    have a3 : (3e-8 : ℝ) + 2 / 2 ^ 52 + 1 / 2 ^ 128 ≤ 4e-8 := by norm_num
    linarith
  have hw2 : |w - √Y| ≤ 6e-7 := by
    have k1 : |w - √Y| * 0.07 ≤ |w - √Y| * √Y := mul_le_mul_of_nonneg_left sY (abs_nonneg _)
    have k3 := (k1.trans hw').trans k2
    have k4 : (0 : ℝ) < 0.07 := by norm_num
    rw [← le_div_iff₀ k4] at k3
    exact k3.trans (by norm_num)
  have hfw : ∀ i p, [(2 ^ 64, 204169420152563078078024764459061)][i]? = some p → Fits ((fun _ => √Y : ℕ → ℝ) i) ((fun _ => w : ℕ → ℝ) i) p := by
    intro i p hp
    rcases i with _ | i
    · simp at hp; subst hp
      refine ⟨?_, hw2.trans (by norm_num)⟩
      dsimp only
      rw [abs_of_nonneg (sqrt_nonneg _)]
      refine sY'.trans (by norm_num)
    · simp at hp
  have hω' := (within_bound hl hfw hω (m := 2 ^ 70) (ε := 1701411834604692317316873037158) (by decide +kernel)).2
  rw [val_mul, val_q, val_v] at hω'
  have hω2 : |ω - 0.00464 * √Y| ≤ 5e-9 := by
    refine le_trans (le_of_eq ?_) (hω'.trans (by norm_num))
    norm_num
  rw [abs_le] at hω2 hu
  clear hω' hw2 hfw k2 hw' sY sY' yb yb' hω
  norm_num at hu hω2 d
  norm_num
  rcases le_total u0 (29 / 6250 * √Y) with hc | hc
  · rw [abs_of_nonpos (by linarith)] at d
    constructor <;> intro <;> linarith
  · rw [abs_of_nonneg (by linarith)] at d
    constructor <;> intro <;> linarith

theorem solar_mag {l : Trig} (hl : l.Ok) {ρ ρ' : ℕ → ℝ} (henv : ∀ i p, [(109000000000000000000, 578480023765595387887736832634), (2 ^ 64 / 32, 1701411834604692317316873037)][i]? = some p → Fits (ρ i) (ρ' i) p)
    {mag : ℝ} (h : Run l ρ' ((q 15433 10000 + v 1 - Ex.abs (v 0)) / (q 5461 10000 + q 2 1 * v 1)) mag) (h1 : |ρ 0| ≤ 1.5433 + ρ 1) (h2 : 0.9972 ≤ |ρ 0|) :
    |mag - (1.5433 + ρ 1 - |ρ 0|) / (0.5461 + 2 * ρ 1)| ≤ 6e-9 := by
  obtain ⟨X, Y, hX, hY, hXY⟩ := run_div h
  have hX' := (within_bound hl henv hX (m := 2 ^ 70) (ε := 680564733841876926926749214863) (by decide +kernel)).2
  have hY' := (within_bound hl henv hY (m := 2 ^ 70) (ε := 6805647338418769269267492148) (by decide +kernel)).2
  rw [val_sub, val_add, val_abs, val_v, val_v, val_q] at hX'
  rw [val_add, val_mul, val_v, val_q, val_q] at hY'
  have ee : ((680564733841876926926749214863 : ℕ) : ℝ) / 2 ^ 128 ≤ 2e-9 := by norm_num
  have hX2 : |X - (1.5433 + ρ 1 - |ρ 0|)| ≤ 2e-9 := by
    refine le_trans (le_of_eq ?_) (hX'.trans ee)
    norm_num
  have hY2 : |Y - (0.5461 + 2 * ρ 1)| ≤ 2e-11 := by
    refine le_trans (le_of_eq ?_) (hY'.trans (by norm_num))
    norm_num
  have hu := (henv 1 _ rfl).1
  have hu' : |ρ 1| ≤ 1 / 32 := by refine hu.trans (by norm_num)
  clear hu hX' hY' henv ee
  generalize |ρ 0| = g at *
  generalize ρ 1 = u at *
  rw [abs_le] at hu'
  obtain ⟨u1, u2⟩ := hu'
  have d1 : (12 : ℝ) / 25 ≤ 0.5461 + 2 * u := by
    have : (12 : ℝ) / 25 ≤ 0.5461 + 2 * (-(1 / 32)) := by norm_num
    linarith
  have d2 : |1.5433 + u - g| ≤ 1 := by
    rw [abs_le]
    have : (1.5433 : ℝ) + 1 / 32 - 0.9972 ≤ 1 := by norm_num
    constructor <;> linarith
  rw [hXY]
  exact (div_close hX2 hY2 d1 (by norm_num) (by norm_num) d2 le_rfl).trans (by norm_num)

theorem solarOf_mag (r : Eclipse.G) :
    (Eclipse.solarOf r).mag = if (Eclipse.solarOf r).kind = .Partial then (1.5433 + r.u - |r.γ|) / (0.5461 + 2 * r.u) else 0 := by
  unfold Eclipse.solarOf
  dsimp only
  by_cases h1 : r.eclipse = false
  · rw [if_pos h1]; simp
  · rw [if_neg h1]
    by_cases h2 : |r.γ| > 1.5433 + r.u
    · rw [if_pos h2]; simp
    · rw [if_neg h2]

theorem solarKind_partial {t1 t2 t3 t4 t5 t6 t7 : Bool} (h : solarKind t1 t2 t3 t4 t5 t6 t7 = .Partial) : ¬ t1 = true ∧ ¬ t2 = true := by
  revert t1 t2 t3 t4 t5 t6 t7
  decide

set_option maxHeartbeats 1000000 in
theorem solar_close {l : Trig} (hl : l.Ok) {r0 r : Eclipse.G} (hg : GClose r0 r) (hc : r0.eclipse = true → SolarClear r0)
    (hz : r0.eclipse = false → r0.γ = 0 ∧ r0.u = 0) {s : Eclipse.SolarResult}
    (h : SolarOfRun l r s) : SolarClose (Eclipse.solarOf r0) s := by
  obtain ⟨s1, s2, s3, s4, s5, s6⟩ := h
  have b1 : (Eclipse.solarOf r0).jmax = r0.jmax := by unfold Eclipse.solarOf; dsimp only; split_ifs <;> rfl
  have b2 : (Eclipse.solarOf r0).γ = r0.γ := by unfold Eclipse.solarOf; dsimp only; split_ifs <;> rfl
  have b3 : (Eclipse.solarOf r0).u = r0.u := by unfold Eclipse.solarOf; dsimp only; split_ifs <;> rfl
  have b4 : (Eclipse.solarOf r0).p = r0.u + 0.5461 := by unfold Eclipse.solarOf; dsimp only; split_ifs <;> rfl
  have e1 : ((578480023765595387887736832634 : ℕ) : ℝ) / 2 ^ 128 ≤ 2e-9 := by norm_num
  have e2 : ((1701411834604692317316873037 : ℕ) : ℝ) / 2 ^ 128 ≤ 1e-11 := by norm_num
  have fγ : Fits r0.γ r.γ (109000000000000000000, 578480023765595387887736832634) := by
    rcases he : r0.eclipse with _ | _
    · rw [(hg.none he).2.1, (hz he).1]; exact fits_zero _
    · exact hg.γ he
  have fu : Fits r0.u r.u (2 ^ 64 / 32, 1701411834604692317316873037) := by
    rcases he : r0.eclipse with _ | _
    · rw [(hg.none he).2.2, (hz he).2]; exact fits_zero _
    · exact hg.u he
  have henv := two_env fγ fu
  have hp : |s.p - (r0.u + 0.5461)| ≤ 1e-11 := by
    have := (within_bound hl henv s4 (m := 2 ^ 64) (ε := 3402823669209384634633746074) (by decide +kernel)).2
    rw [val_add, val_v, val_q] at this
    refine le_trans (le_of_eq ?_) (this.trans (by norm_num))
    simp only [two]
    norm_num
  have common : ∀ {k cc m}, s.kind = k → s.central = cc → |s.mag - m| ≤ 6e-9 → (Eclipse.solarOf r0).kind = k → (Eclipse.solarOf r0).central = cc →
      (Eclipse.solarOf r0).mag = m → SolarClose (Eclipse.solarOf r0) s := by
    intro k cc m k1 k2 k3 k4 k5 k6
    exact ⟨by rw [k1, k4], by rw [k2, k5], by rw [s1, b1]; exact hg.jmax, by rw [s2, b2]; exact fγ.2.trans e1, by rw [s3, b3]; exact fu.2.trans e2,
      by rw [b4]; exact hp, by rw [k6]; exact k3⟩
  rcases he : r0.eclipse with _ | _
  · obtain ⟨a, b, d⟩ := s5 (by rw [hg.eclipse, he])
    have : (Eclipse.solarOf r0).kind = .None ∧ (Eclipse.solarOf r0).central = false ∧ (Eclipse.solarOf r0).mag = 0 := by
      unfold Eclipse.solarOf; simp [he]
    exact common a b (by rw [d]; norm_num) this.1 this.2.1 this.2.2
  · obtain ⟨t1, t2, t3, t4, t5, t6, t7, y, w, ω, h1, h2, h3, h4, h5, h6, hy, hw, hω, h7, hk, hcen, hm1, hm2⟩ := s6 (by rw [hg.eclipse, he])
    obtain ⟨c1, c2, c3, c4⟩ := hc he
    have v0 : (v 0).val (two r0.γ r0.u) = r0.γ := rfl
    have v1 : (v 1).val (two r0.γ r0.u) = r0.u := rfl
    have q1 : (15433 : ℤ) / (10000 : ℕ) = (1.5433 : ℝ) := by norm_num
    have q2 : (9972 : ℤ) / (10000 : ℕ) = (0.9972 : ℝ) := by norm_num
    have q3 : (1026 : ℤ) / (1000 : ℕ) = (1.026 : ℝ) := by norm_num
    have q4 : (0 : ℤ) / (1 : ℕ) = (0 : ℝ) := by norm_num
    have q5 : (47 : ℤ) / (10000 : ℕ) = (0.0047 : ℝ) := by norm_num
    have δ8 : 2 * ((1701411834604692317316873037158 : ℕ) : ℝ) / 2 ^ 128 ≤ 1e-8 := by norm_num
    have L1 := less_iff hl henv h1 (m := 2 ^ 70) (ε := 1701411834604692317316873037158) (by decide +kernel) (by decide +kernel) δ8
      (by rw [val_add, val_abs, val_q, v0, v1, q1, abs_sub_comm]; exact c1)
    rw [val_add, val_abs, val_q, v0, v1, q1] at L1
    have L2 := less_iff hl henv h2 (m := 2 ^ 70) (ε := 1701411834604692317316873037158) (by decide +kernel) (by decide +kernel) δ8
      (by rw [val_abs, val_q, v0, q2]; exact c2)
    rw [val_abs, val_q, v0, q2] at L2
    have L34 : 0.9972 ≤ |r0.γ| → ((t3 = true ↔ |r0.γ| < 1.026) ∧ (t4 = true ↔ |r0.γ| < 0.9972 + |r0.u|)) := by
      intro hh
      obtain ⟨c3, c3'⟩ := c3 hh
      have L3 := less_iff hl henv h3 (m := 2 ^ 70) (ε := 1701411834604692317316873037158) (by decide +kernel) (by decide +kernel) δ8
        (by rw [val_abs, val_q, v0, q3]; exact c3)
      have L4 := less_iff hl henv h4 (m := 2 ^ 70) (ε := 1701411834604692317316873037158) (by decide +kernel) (by decide +kernel) δ8
        (by rw [val_abs, val_add, val_abs, val_q, v0, v1, q2]; exact c3')
      rw [val_abs, val_q, v0, q3] at L3
      rw [val_abs, val_add, val_abs, val_q, v0, v1, q2] at L4
      exact ⟨L3, L4⟩
    have L57 : |r0.γ| < 0.9972 → ((t5 = true ↔ r0.u < 0) ∧ (t6 = true ↔ 0.0047 < r0.u) ∧ (t7 = true ↔ r0.u < 0.00464 * √(1 - r0.γ * r0.γ))) := by
      intro hh
      obtain ⟨d1, d2, d3⟩ := c4 hh
      have L5 := less_iff hl henv h5 (m := 2 ^ 70) (ε := 1701411834604692317316873037158) (by decide +kernel) (by decide +kernel) δ8
        (by rw [val_q, v1, q4, sub_zero]; exact d1)
      have L6 := less_iff hl henv h6 (m := 2 ^ 70) (ε := 1701411834604692317316873037158) (by decide +kernel) (by decide +kernel) δ8
        (by rw [val_q, v1, q5, abs_sub_comm]; exact d2)
      rw [val_q, v1, q4] at L5
      rw [val_q, v1, q5] at L6
      refine ⟨L5, L6, ?_⟩
      have hy' := (within_bound hl henv hy (m := 2 ^ 70) (ε := 10208471007628153903901238222953) (by decide +kernel)).2
      rw [val_sub, val_mul, v0, val_q] at hy'
      have hy2 : |y - (1 - r0.γ * r0.γ)| ≤ 3e-8 := by
        refine le_trans (le_of_eq ?_) (hy'.trans (by norm_num))
        norm_num
      rw [h7, s3]
      exact omega_less hl hh hy2 hw hω (fu.2.trans e2) d3
    obtain ⟨K1, K2⟩ := solarOf_kind r0 he L1 L2 L34 L57
    by_cases kp : s.kind = .Partial
    · have kp0 : (Eclipse.solarOf r0).kind = .Partial := by rw [K1, ← hk, kp]
      have hγ : |r0.γ| ≤ 1.5433 + r0.u ∧ 0.9972 ≤ |r0.γ| := by
        rw [← not_lt, ← not_lt, ← L1, ← L2]
        exact solarKind_partial (hk.symm.trans kp)
      have km : (Eclipse.solarOf r0).mag = (1.5433 + r0.u - |r0.γ|) / (0.5461 + 2 * r0.u) := by rw [solarOf_mag, if_pos kp0]
      refine common kp hcen ?_ kp0 K2 km
      exact solar_mag hl henv (hm1 kp) hγ.1 hγ.2
    · have km : (Eclipse.solarOf r0).mag = 0 := by rw [solarOf_mag, if_neg (by rw [K1, ← hk]; exact kp)]
      exact common hk hcen (by rw [hm2 kp]; norm_num) K1 K2 km

/-! Lunar eclipses. -/

/-- The part of `Lunar` after the call of `g`.  v3/eclipse/eclipse.go:185-220.  Variable 0 is γ, variable 1 is u; semidurations in hours. -/
def LunarOfRun (l : Trig) (r : Eclipse.G) (s : Eclipse.LunarResult) : Prop :=
  let ρ := two r.γ r.u
  s.jmax = r.jmax ∧ s.γ = r.γ ∧
  (r.eclipse = false → s.kind = .None ∧ s.ρ = 0 ∧ s.σ = 0 ∧ s.mag = 0 ∧ s.sdTotal = 0 ∧ s.sdPartial = 0 ∧ s.sdPenumbral = 0) ∧
  (r.eclipse = true → ∃ mag mag' n yt wt yp wp yh wh : ℝ,
    Run l ρ (q 12848 10000 + v 1) s.ρ ∧ Run l ρ (q 7403 10000 - v 1) s.σ ∧
    Run l ρ ((q 10128 10000 - v 1 - Ex.abs (v 0)) / q 545 1000) mag ∧
    Run l ρ ((q 15573 10000 + v 1 - Ex.abs (v 0)) / q 545 1000) mag' ∧
    Run l (fun _ => r.M') (q 5458 10000 + q 4 100 * Ex.cos (v 0)) n ∧
    Run l ρ ((q 4678 10000 - v 1) * (q 4678 10000 - v 1) - v 0 * v 0) yt ∧ SqrtRun yt wt ∧
    Run l ρ ((q 10128 10000 - v 1) * (q 10128 10000 - v 1) - v 0 * v 0) yp ∧ SqrtRun yp wp ∧
    Run l ρ ((q 15573 10000 + v 1) * (q 15573 10000 + v 1) - v 0 * v 0) yh ∧ SqrtRun yh wh ∧
    (1 < mag → s.kind = .Total ∧ s.mag = mag ∧ s.sdTotal = fl (wt / n) ∧ s.sdPartial = fl (wp / n) ∧ s.sdPenumbral = fl (wh / n)) ∧
    (¬ 1 < mag → 0 < mag → s.kind = .Umbral ∧ s.mag = mag ∧ s.sdTotal = 0 ∧ s.sdPartial = fl (wp / n) ∧ s.sdPenumbral = fl (wh / n)) ∧
    (¬ 0 < mag → mag' < 0 → s.kind = .None ∧ s.mag = mag' ∧ s.sdTotal = 0 ∧ s.sdPartial = 0 ∧ s.sdPenumbral = 0) ∧
    (¬ 0 < mag → ¬ mag' < 0 → s.kind = .Penumbral ∧ s.mag = mag' ∧ s.sdTotal = 0 ∧ s.sdPartial = 0 ∧ s.sdPenumbral = fl (wh / n)))

/-- What `Lunar` may return. -/
def LunarRun (l : Trig) (year : ℝ) (s : Eclipse.LunarResult) : Prop :=
  ∃ x z jm r, Run l (fun _ => year) (snapPhase (q 2 4)) x ∧ Run l (fun _ => year) (q 2 4) z ∧ SnapRun l snapPhase (q 2 4) Moonphase64.mean year jm ∧
    GRun l (fl (⌊x⌋ + z)) jm Eclipse64.jmaxLunar r ∧ LunarOfRun l r s

/-- None of the comparisons is within 10⁻⁷ of equality. -/
structure LunarClear (r : Eclipse.G) : Prop where
  total : 1e-7 < |(1.0128 - r.u - |r.γ|) / 0.545 - 1|
  umbral : 1e-7 < |(1.0128 - r.u - |r.γ|) / 0.545|
  penumbral : 1e-7 < |(1.5573 + r.u - |r.γ|) / 0.545|

/-- The same eclipse.  The error of a semiduration d in hours is at most 4·10⁻⁸/d. -/
structure LunarClose (s0 s : Eclipse.LunarResult) : Prop where
  kind : s.kind = s0.kind
  jmax : |s.jmax - s0.jmax| ≤ 1.1e-8
  γ : |s.γ - s0.γ| ≤ 2e-9
  ρ : |s.ρ - s0.ρ| ≤ 1e-11
  σ : |s.σ - s0.σ| ≤ 1e-11
  mag : |s.mag - s0.mag| ≤ 6e-9
  sdTotal : |s.sdTotal - s0.sdTotal| * s0.sdTotal ≤ 4e-8
  sdPartial : |s.sdPartial - s0.sdPartial| * s0.sdPartial ≤ 4e-8
  sdPenumbral : |s.sdPenumbral - s0.sdPenumbral| * s0.sdPenumbral ≤ 4e-8

theorem semi_close {a g y w n n0 : ℝ} (ha : 0.4 ≤ a) (ha' : a ≤ 1.6) (hg : |g| + 5e-8 ≤ a) (hy : |y - (a * a - g * g)| ≤ 7e-9) (hw : SqrtRun y w)
    (hn0 : 0.5 ≤ n0) (hn : |n - n0| ≤ 2e-11) : |fl (w / n) - √(a * a - g * g) / n0| * (√(a * a - g * g) / n0) ≤ 4e-8 := by
  have g0 := abs_nonneg g
  have Yb : 1.9e-8 ≤ a * a - g * g := by
    rw [← abs_mul_abs_self g]
    have h1 : 0.4 ≤ a + |g| := by linarith
    have h2 : 5e-8 ≤ a - |g| := by linarith
    have h3 : (0.4 * 5e-8 : ℝ) ≤ (a + |g|) * (a - |g|) := mul_le_mul h1 h2 (by norm_num) (by linarith)
    have h4 : (1.9e-8 : ℝ) ≤ 0.4 * 5e-8 := by norm_num
    nlinarith
  have Yb' : a * a - g * g ≤ 2.56 := by
    have : a * a ≤ 1.6 * 1.6 := mul_le_mul ha' ha' (by norm_num at *; linarith) (by norm_num)
    have : (1.6 * 1.6 : ℝ) = 2.56 := by norm_num
    nlinarith [mul_self_nonneg g]
  obtain ⟨w0, hw'⟩ := sqrt_close hy (le_trans (by norm_num) Yb) (by norm_num) hw
  clear hy hw hg ha ha' g0
  generalize a * a - g * g = Y at *
  have s1 : 1e-4 ≤ √Y := by
    apply le_sqrt_of_sq_le
    refine le_trans (by norm_num) Yb
  have s2 : √Y ≤ 1.6 := by
    rw [sqrt_le_left (by norm_num)]
    refine Yb'.trans (by norm_num)
  have s0 := sqrt_nonneg Y
  have k : |w - √Y| * √Y ≤ 7.1e-9 := by
    refine hw'.trans ?_
    have a1 : (Y + 7e-9) / 2 ^ 52 ≤ 3 / 2 ^ 52 := by
      have h3 : (2.56 : ℝ) + 7e-9 ≤ 3 := by norm_num
      exact div_le_div_of_nonneg_right (by linarith) (by positivity)
    have a2 : √Y / 2 ^ 128 ≤ 1.6 / 2 ^ 128 := div_le_div_of_nonneg_right s2 (by positivity)
    have a3 : (7e-9 : ℝ) + 3 / 2 ^ 52 + 1.6 / 2 ^ 128 ≤ 7.1e-9 := by norm_num
    linarith
  have k2 : |w - √Y| ≤ 7.1e-5 := by
    have : |w - √Y| * 1e-4 ≤ |w - √Y| * √Y := mul_le_mul_of_nonneg_left s1 (abs_nonneg _)
    have h := this.trans k
    rw [← le_div_iff₀ (by norm_num)] at h
    exact h.trans (by norm_num)
  have d := div_close (le_refl |w - √Y|) hn (le_trans (by norm_num) hn0) (k2.trans (by norm_num)) (by norm_num)
    (m := 1.6) (by rw [abs_of_nonneg s0]; exact s2) (by norm_num)
  have n0p : 0 < n0 := lt_of_lt_of_le (by norm_num) hn0
  have q0 : 0 ≤ √Y / n0 := by positivity
  have q1 : √Y / n0 ≤ 2 * √Y := by
    rw [div_le_iff₀ n0p]
    have : 2 * √Y * 0.5 ≤ 2 * √Y * n0 := mul_le_mul_of_nonneg_left hn0 (by positivity)
    norm_num at *
    linarith
  refine (mul_le_mul d q1 q0 (by positivity)).trans ?_
  have e1 : (5 / 2 * (|w - √Y| + 2 * 1.6 * 2e-11) + 1.6 / 2 ^ 50) * (2 * √Y) =
      5 * (|w - √Y| * √Y) + (5 * (2 * 1.6 * 2e-11) + 2 * (1.6 / 2 ^ 50)) * √Y := by ring
  rw [e1]
  have e2 : (5 * (2 * 1.6 * 2e-11) + 2 * (1.6 / 2 ^ 50)) * √Y ≤ (5 * (2 * 1.6 * 2e-11) + 2 * (1.6 / 2 ^ 50)) * 1.6 :=
    mul_le_mul_of_nonneg_left s2 (by norm_num)
  have e3 : (5 * 7.1e-9 : ℝ) + (5 * (2 * 1.6 * 2e-11) + 2 * (1.6 / 2 ^ 50)) * 1.6 ≤ 4e-8 := by norm_num
  linarith

theorem lunar_mag {l : Trig} (hl : l.Ok) {ρ ρ' : ℕ → ℝ} {env : List (ℕ × ℕ)} (henv : ∀ i p, env[i]? = some p → Fits (ρ i) (ρ' i) p)
    {e : Ex} {mag : ℝ} (h : Run l ρ' (e / q 545 1000) mag) (hw : within env e (8 * 2 ^ 64) 680564733841876926926749214863 = true)
    (hc : within env (q 545 1000) (2 ^ 64) 3402823669209384634633746 = true) : |mag - e.val ρ / 0.545| ≤ 6e-9 := by
  obtain ⟨X, Y, hX, hY, hXY⟩ := run_div h
  obtain ⟨hX1, hX2⟩ := within_bound hl henv hX hw
  have hY' := (within_bound hl henv hY hc).2
  rw [val_q] at hY'
  have hX' : |X - e.val ρ| ≤ 2e-9 := hX2.trans (by norm_num)
  have hY2 : |Y - 0.545| ≤ 1e-14 := by
    refine le_trans (le_of_eq ?_) (hY'.trans (by norm_num))
    norm_num
  rw [hXY]
  refine (div_close hX' hY2 (by norm_num) (by norm_num) (by norm_num) (m := 8) (hX1.trans (by norm_num)) (by norm_num)).trans (by norm_num)

theorem near_lt {x x0 a e δ : ℝ} (h : |x - x0| ≤ e) (hd : δ < |x0 - a|) (he : e ≤ δ) : (x < a ↔ x0 < a) ∧ (a < x ↔ a < x0) := by
  rw [abs_le] at h
  rcases le_total x0 a with hc | hc
  · rw [abs_of_nonpos (by linarith)] at hd
    refine ⟨⟨fun _ => by linarith, fun _ => by linarith⟩, ⟨fun _ => by linarith, fun _ => by linarith⟩⟩
  · rw [abs_of_nonneg (by linarith)] at hd
    refine ⟨⟨fun _ => by linarith, fun _ => by linarith⟩, ⟨fun _ => by linarith, fun _ => by linarith⟩⟩

theorem lunar_semi {l : Trig} (hl : l.Ok) {r0 r : Eclipse.G} (fγ : Fits r0.γ r.γ (109000000000000000000, 578480023765595387887736832634)) (fu : Fits r0.u r.u (2 ^ 64 / 32, 1701411834604692317316873037))
    (h2 : |r0.γ| ≤ 2) {n yt wt yp wp yh wh : ℝ} (hn : |n - (0.5458 + 0.04 * Real.cos r0.M')| ≤ 2e-11)
    (h : Run l (two r.γ r.u) ((q 4678 10000 - v 1) * (q 4678 10000 - v 1) - v 0 * v 0) yt ∧ SqrtRun yt wt ∧
    Run l (two r.γ r.u) ((q 10128 10000 - v 1) * (q 10128 10000 - v 1) - v 0 * v 0) yp ∧ SqrtRun yp wp ∧
    Run l (two r.γ r.u) ((q 15573 10000 + v 1) * (q 15573 10000 + v 1) - v 0 * v 0) yh ∧ SqrtRun yh wh) :
    let n0 := 0.5458 + 0.04 * Real.cos r0.M'
    (|r0.γ| + 5e-8 ≤ 0.4678 - r0.u → |fl (wt / n) - √((0.4678 - r0.u) * (0.4678 - r0.u) - r0.γ * r0.γ) / n0| *
      (√((0.4678 - r0.u) * (0.4678 - r0.u) - r0.γ * r0.γ) / n0) ≤ 4e-8) ∧
    (|r0.γ| + 5e-8 ≤ 1.0128 - r0.u → |fl (wp / n) - √((1.0128 - r0.u) * (1.0128 - r0.u) - r0.γ * r0.γ) / n0| *
      (√((1.0128 - r0.u) * (1.0128 - r0.u) - r0.γ * r0.γ) / n0) ≤ 4e-8) ∧
    (|r0.γ| + 5e-8 ≤ 1.5573 + r0.u → |fl (wh / n) - √((1.5573 + r0.u) * (1.5573 + r0.u) - r0.γ * r0.γ) / n0| *
      (√((1.5573 + r0.u) * (1.5573 + r0.u) - r0.γ * r0.γ) / n0) ≤ 4e-8) := by
  intro n0
  obtain ⟨y1, w1, y2, w2, y3, w3⟩ := h
  have f2 : Fits r0.γ r.γ (2 * 2 ^ 64, 578480023765595387887736832634) := ⟨by push_cast; norm_num; exact h2, fγ.2⟩
  have henv := two_env f2 fu
  have v0 : (v 0).val (two r0.γ r0.u) = r0.γ := rfl
  have v1 : (v 1).val (two r0.γ r0.u) = r0.u := rfl
  have hu : |r0.u| ≤ 1 / 32 := fu.1.trans (by norm_num)
  rw [abs_le] at hu
  obtain ⟨u1, u2⟩ := hu
  have hn0 : 0.5 ≤ n0 := by
    have := neg_one_le_cos r0.M'
    have h3 : (0.5 : ℝ) ≤ 0.5458 + 0.04 * (-1) := by norm_num
    have h4 : (0.04 : ℝ) * (-1) ≤ 0.04 * Real.cos r0.M' := mul_le_mul_of_nonneg_left this (by norm_num)
    show 0.5 ≤ 0.5458 + 0.04 * Real.cos r0.M'
    linarith
  have z1 := (within_bound hl henv y1 (m := 2 ^ 70) (ε := 2381976568446569244243622252022) (by decide +kernel)).2
  have z2 := (within_bound hl henv y2 (m := 2 ^ 70) (ε := 2381976568446569244243622252022) (by decide +kernel)).2
  have z3 := (within_bound hl henv y3 (m := 2 ^ 70) (ε := 2381976568446569244243622252022) (by decide +kernel)).2
  rw [val_sub, val_mul, val_mul, val_sub, v0, v1, val_q, show ((4678 : ℤ) : ℝ) / (10000 : ℕ) = 0.4678 by norm_num] at z1
  rw [val_sub, val_mul, val_mul, val_sub, v0, v1, val_q, show ((10128 : ℤ) : ℝ) / (10000 : ℕ) = 1.0128 by norm_num] at z2
  rw [val_sub, val_mul, val_mul, val_add, v0, v1, val_q, show ((15573 : ℤ) : ℝ) / (10000 : ℕ) = 1.5573 by norm_num] at z3
  have ee : ((2381976568446569244243622252022 : ℕ) : ℝ) / 2 ^ 128 ≤ 7e-9 := by norm_num
  have p1 : (0.4 : ℝ) ≤ 0.4678 - 1 / 32 ∧ (0.4678 : ℝ) + 1 / 32 ≤ 1.6 ∧ (0.4 : ℝ) ≤ 1.0128 - 1 / 32 ∧ (1.0128 : ℝ) + 1 / 32 ≤ 1.6 ∧ (0.4 : ℝ) ≤ 1.5573 - 1 / 32 ∧
    (1.5573 : ℝ) + 1 / 32 ≤ 1.6 := by norm_num
  obtain ⟨p1, p2, p3, p4, p5, p6⟩ := p1
  refine ⟨fun hg => ?_, fun hg => ?_, fun hg => ?_⟩
  · exact semi_close (by linarith) (by linarith) hg (z1.trans ee) w1 hn0 hn
  · exact semi_close (by linarith) (by linarith) hg (z2.trans ee) w2 hn0 hn
  · exact semi_close (by linarith) (by linarith) hg (z3.trans ee) w3 hn0 hn

set_option maxHeartbeats 1000000 in
theorem lunar_close {l : Trig} (hl : l.Ok) {r0 r : Eclipse.G} (hg : GClose r0 r) (hc : r0.eclipse = true → LunarClear r0) {s : Eclipse.LunarResult}
    (h : LunarOfRun l r s) : LunarClose (Eclipse.lunarOf r0) s := by
  obtain ⟨s1, s2, s3, s4⟩ := h
  rcases he : r0.eclipse with _ | _
  · obtain ⟨a1, a2, a3, a4, a5, a6, a7⟩ := s3 (by rw [hg.eclipse, he])
    have e : Eclipse.lunarOf r0 = ⟨.None, r0.jmax, r0.γ, 0, 0, 0, 0, 0, 0⟩ := by unfold Eclipse.lunarOf; rw [if_pos he]
    rw [e]
    refine ⟨a1, ?_, ?_, ?_, ?_, ?_, ?_, ?_, ?_⟩
    · rw [s1]; exact hg.jmax
    · rw [s2, (hg.none he).2.1]; norm_num
    · rw [a2]; norm_num
    · rw [a3]; norm_num
    · rw [a4]; norm_num
    · norm_num
    · norm_num
    · norm_num
  · obtain ⟨mag, mag', n, yt, wt, yp, wp, yh, wh, k1, k2, k3, k4, k5, y1, w1, y2, w2, y3, w3, c1, c2, c3, c4⟩ := s4 (by rw [hg.eclipse, he])
    have fγ := hg.γ he
    have fu := hg.u he
    have fM := hg.M' he
    obtain ⟨l1, l2, l3⟩ := hc he
    have henv := two_env fγ fu
    have v0 : (v 0).val (two r0.γ r0.u) = r0.γ := rfl
    have v1 : (v 1).val (two r0.γ r0.u) = r0.u := rfl
    have e1 : ((578480023765595387887736832634 : ℕ) : ℝ) / 2 ^ 128 ≤ 2e-9 := by norm_num
    have e11 : ((3402823669209384634633746074 : ℕ) : ℝ) / 2 ^ 128 ≤ 1e-11 := by norm_num
    have Hρ := (within_bound hl henv k1 (m := 2 ^ 70) (ε := 3402823669209384634633746074) (by decide +kernel)).2.trans e11
    have Hσ := (within_bound hl henv k2 (m := 2 ^ 70) (ε := 3402823669209384634633746074) (by decide +kernel)).2.trans e11
    have Hm := lunar_mag hl henv k3 (by decide +kernel) (by decide +kernel)
    have Hm' := lunar_mag hl henv k4 (by decide +kernel) (by decide +kernel)
    rw [val_add, v1, val_q, show ((12848 : ℤ) : ℝ) / (10000 : ℕ) = 1.2848 by norm_num] at Hρ
    rw [val_sub, v1, val_q, show ((7403 : ℤ) : ℝ) / (10000 : ℕ) = 0.7403 by norm_num] at Hσ
    rw [val_sub, val_sub, val_abs, v0, v1, val_q, show ((10128 : ℤ) : ℝ) / (10000 : ℕ) = 1.0128 by norm_num] at Hm
    rw [val_sub, val_add, val_abs, v0, v1, val_q, show ((15573 : ℤ) : ℝ) / (10000 : ℕ) = 1.5573 by norm_num] at Hm'
    have Hn : |n - (0.5458 + 0.04 * Real.cos r0.M')| ≤ 2e-11 := by
      have hf : ∀ i p, [(334000 * 2 ^ 64, 102084710076281539039012382229)][i]? = some p → Fits ((fun _ => r0.M' : ℕ → ℝ) i) ((fun _ => r.M' : ℕ → ℝ) i) p := by
        intro i p hp
        rcases i with _ | i
        · simp only [List.getElem?_cons_zero, Option.some.injEq] at hp; subst hp; exact fM
        · simp at hp
      have := (within_bound hl hf k5 (m := 2 ^ 70) (ε := 6805647338418769269267492148) (by decide +kernel)).2
      rw [val_add, val_mul, val_cos, val_v, val_q, val_q, show ((5458 : ℤ) : ℝ) / (10000 : ℕ) = 0.5458 by norm_num,
        show ((4 : ℤ) : ℝ) / (100 : ℕ) = 0.04 by norm_num] at this
      exact this.trans (by norm_num)
    have S := fun h2 => lunar_semi hl fγ fu h2 Hn ⟨y1, w1, y2, w2, y3, w3⟩
    have hu : |r0.u| ≤ 1 / 32 := fu.1.trans (by norm_num)
    rw [abs_le] at hu
    obtain ⟨u1, u2⟩ := hu
    have m1 := (near_lt Hm l1 (by norm_num)).2
    have m2 := (near_lt Hm (by rw [sub_zero]; exact l2) (by norm_num)).2
    have m3 := (near_lt Hm' (by rw [sub_zero]; exact l3) (by norm_num)).1
    have z : ∀ x : ℝ, |(0 : ℝ) - 0| * x ≤ 4e-8 := fun x => by rw [sub_zero, abs_zero, zero_mul]; norm_num
    have pen : ¬ (1.5573 + r0.u - |r0.γ|) / 0.545 < 0 → |r0.γ| + 5e-8 ≤ 1.5573 + r0.u := by
      intro hh
      rw [abs_of_nonneg (not_lt.mp hh), lt_div_iff₀ (by norm_num)] at l3
      norm_num at l3 ⊢
      linarith
    have umb : 0 < (1.0128 - r0.u - |r0.γ|) / 0.545 → |r0.γ| + 5e-8 ≤ 1.0128 - r0.u := by
      intro hh
      rw [abs_of_pos hh, lt_div_iff₀ (by norm_num)] at l2
      norm_num at l2 ⊢
      linarith
    have tot : 1 < (1.0128 - r0.u - |r0.γ|) / 0.545 → |r0.γ| + 5e-8 ≤ 0.4678 - r0.u := by
      intro hh
      rw [abs_of_pos (by linarith), lt_sub_iff_add_lt, lt_div_iff₀ (by norm_num)] at l1
      norm_num at l1 ⊢
      linarith
    have umbpen : |r0.γ| + 5e-8 ≤ 1.0128 - r0.u → |r0.γ| + 5e-8 ≤ 1.5573 + r0.u := by
      intro hh
      norm_num at hh ⊢
      linarith
    have two' : |r0.γ| + 5e-8 ≤ 1.5573 + r0.u → |r0.γ| ≤ 2 := by
      intro hh
      norm_num at hh ⊢
      linarith
    unfold Eclipse.lunarOf
    rw [if_neg (by simp [he])]
    dsimp only
    by_cases b1 : (1.0128 - r0.u - |r0.γ|) / 0.545 > 1
    · rw [if_pos b1]
      obtain ⟨d1, d2, d3, d4, d5⟩ := c1 (m1.mpr b1)
      have b2 : 0 < (1.0128 - r0.u - |r0.γ|) / 0.545 := lt_trans one_pos b1
      obtain ⟨S1, S2, S3⟩ := S (two' (umbpen (umb b2)))
      exact ⟨d1, by rw [s1]; exact hg.jmax, by rw [s2]; exact fγ.2.trans e1, Hρ, Hσ, by rw [d2]; exact Hm, by rw [d3]; exact S1 (tot b1),
        by rw [d4]; exact S2 (umb b2), by rw [d5]; exact S3 (umbpen (umb b2))⟩
    · rw [if_neg b1]
      by_cases b2 : (1.0128 - r0.u - |r0.γ|) / 0.545 > 0
      · rw [if_pos b2]
        obtain ⟨d1, d2, d3, d4, d5⟩ := c2 (by rw [m1]; exact b1) (m2.mpr b2)
        obtain ⟨S1, S2, S3⟩ := S (two' (umbpen (umb b2)))
        exact ⟨d1, by rw [s1]; exact hg.jmax, by rw [s2]; exact fγ.2.trans e1, Hρ, Hσ, by rw [d2]; exact Hm, by rw [d3]; exact z _,
          by rw [d4]; exact S2 (umb b2), by rw [d5]; exact S3 (umbpen (umb b2))⟩
      · rw [if_neg b2]
        by_cases b3 : (1.5573 + r0.u - |r0.γ|) / 0.545 < 0
        · rw [if_pos b3]
          obtain ⟨d1, d2, d3, d4, d5⟩ := c3 (by rw [m2]; exact b2) (m3.mpr b3)
          exact ⟨d1, by rw [s1]; exact hg.jmax, by rw [s2]; exact fγ.2.trans e1, Hρ, Hσ, by rw [d2]; exact Hm', by rw [d3]; exact z _,
            by rw [d4]; exact z _, by rw [d5]; exact z _⟩
        · rw [if_neg b3]
          obtain ⟨d1, d2, d3, d4, d5⟩ := c4 (by rw [m2]; exact b2) (by rw [m3]; exact b3)
          obtain ⟨S1, S2, S3⟩ := S (two' (pen b3))
          exact ⟨d1, by rw [s1]; exact hg.jmax, by rw [s2]; exact fγ.2.trans e1, Hρ, Hσ, by rw [d2]; exact Hm', by rw [d3]; exact z _,
            by rw [d4]; exact z _, by rw [d5]; exact S3 (pen b3)⟩

/-! The claims. -/

theorem mean_size {k : ℝ} (hk : |k| ≤ 49476) : |Moonphase.mean (k * Moonphase.ck)| ≤ 3913000 := by
  obtain ⟨x, hx⟩ := run_exists ⟨fun x => fl (Real.sin x), fun x => fl (Real.cos x)⟩ (fun _ => k) Moonphase64.mean
  have := (within_bound trig_ok (env_one (m := 49476) (by exact_mod_cast hk)) hx (m := 3913000 * 2 ^ 64) (ε := 2 ^ 128) (by decide +kernel)).1
  rw [meanPhase_v] at this
  push_cast at this
  norm_num at this
  exact this

theorem run_v {l : Trig} {ρ : ℕ → ℝ} {i : ℕ} {x : ℝ} (h : Run l ρ (v i) x) : x = ρ i := by
  cases h
  rfl

/-- The lunation and the mean phase which the program starts from. -/
theorem snap_both {l : Trig} (hl : l.Ok) {year : ℝ} (h : |year - 2000| ≤ 4000) (j : ℕ) (hj : j < 4)
    (hn : 1e-10 < |Int.fract ((year - 2000) * 12.3685 - (j : ℝ) / 4) - 1 / 2|) {x z jm : ℝ} (hx : Run l (fun _ => year) (snapPhase (q j 4)) x)
    (hz : Run l (fun _ => year) (q j 4) z) (hm : SnapRun l snapPhase (q j 4) Moonphase64.mean year jm) :
    fl (⌊x⌋ + z) = Moonphase.snap year (j / 4) ∧ |Moonphase.snap year (j / 4)| ≤ 49476 ∧ |jm - Moonphase.mean (Moonphase.snap year (j / 4) * Moonphase.ck)| ≤ 2e-9 := by
  have hK := year_k h (y0 := 2000) (r := 12.3685) 49476 (by norm_num) (by norm_num) (by norm_num)
  have hb : within [(6000 * 2 ^ 64, 0)] (snapPhase (q (j : ℕ) 4)) (98950 * 2 ^ 64) 34028236692093846346337460743 = true := by
    interval_cases j <;> decide +kernel
  obtain ⟨n, _, h2, h3⟩ := snap64 hl hj (year_6000 h) (98950 * 2 ^ 64) (by norm_num) (phase_val year) hb (body := v 0) (out := fl (⌊x⌋ + z)) ⟨x, z, hx, hz, Run.v 0⟩
  obtain ⟨n', g1, g2, g3⟩ := C183_mean l hl year jm h j hj hm
  have e1 : fl (⌊x⌋ + z) = n + (j : ℝ) / 4 := run_v h2
  have e2 : (n : ℝ) + (j : ℝ) / 4 = Moonphase.snap year (j / 4) := by rw [h3 hn]; rfl
  have e3 : (n' : ℝ) + (j : ℝ) / 4 = Moonphase.snap year (j / 4) := by rw [g3 hn]; rfl
  rw [e3] at g1 g2
  refine ⟨e1.trans e2, ?_, g2⟩
  have g4 : |(year - 2000) * 12.3685 - Moonphase.snap year (j / 4)| ≤ 1 := g1.trans (by norm_num)
  rw [abs_le] at g4 ⊢
  have := abs_le.mp (le_refl |(year - 2000) * 12.3685|)
  push_cast at hK
  constructor <;> linarith

/-- The elements from which `Solar` and `Lunar` decide, in exact arithmetic. -/
noncomputable def solarG (year : ℝ) : Eclipse.G := Eclipse.g (Moonphase.snap year 0) (Moonphase.MeanNew year) (-0.4075) 0.1721
noncomputable def lunarG (year : ℝ) : Eclipse.G := Eclipse.g (Moonphase.snap year 0.5) (Moonphase.MeanFull year) (-0.4065) 0.1727

/-- The date is not within 10⁻¹⁰ lunation of the middle between two syzygies, and the Moon not at the very limit of the node. -/
def NoTie (year h : ℝ) : Prop :=
  1e-10 < |Int.fract ((year - 2000) * 12.3685 - h) - 1 / 2| ∧ 1e-9 < |(|Real.sin (Eclipse.argF (Moonphase.snap year h * Moonphase.ck))|) - 0.36|

/-- Solar eclipses in double precision from −2000 to 6000. -/
theorem C185_solar (l : Trig) (hl : l.Ok) (year : ℝ) (h : |year - 2000| ≤ 4000) (ht : NoTie year 0) (hc : (solarG year).eclipse = true → SolarClear (solarG year))
    (s : Eclipse.SolarResult) (hs : SolarRun l year s) : SolarClose (Eclipse.Solar year) s := by
  obtain ⟨x, z, jm, r, h1, h2, h3, h4, h5⟩ := hs
  have e0 : ((0 : ℕ) : ℝ) / 4 = 0 := by norm_num
  obtain ⟨a1, a2, a3⟩ := snap_both hl h 0 (by norm_num) (by rw [e0]; exact ht.1) h1 h2 h3
  rw [e0] at a1 a2 a3
  rw [a1] at h4
  have := g_close hl a2 (mean_size a2) a3 (c1 := -0.4075) (c2 := 0.1721) (g_jmax_solar _ _) (by decide +kernel) ht.2 h4
  refine solar_close hl this hc ?_ h5
  intro he
  by_cases hb : |Real.sin (Eclipse.argF (Moonphase.snap year 0 * Moonphase.ck))| > 0.36
  · unfold Eclipse.g
    rw [if_pos hb]
    exact ⟨rfl, rfl⟩
  · rw [(g64_elements _ _ _ _ hb).1] at he
    cases he

/-- Lunar eclipses in double precision from −2000 to 6000. -/
theorem C185_lunar (l : Trig) (hl : l.Ok) (year : ℝ) (h : |year - 2000| ≤ 4000) (ht : NoTie year 0.5) (hc : (lunarG year).eclipse = true → LunarClear (lunarG year))
    (s : Eclipse.LunarResult) (hs : LunarRun l year s) : LunarClose (Eclipse.Lunar year) s := by
  obtain ⟨x, z, jm, r, h1, h2, h3, h4, h5⟩ := hs
  have e0 : ((2 : ℕ) : ℝ) / 4 = 0.5 := by norm_num
  obtain ⟨a1, a2, a3⟩ := snap_both hl h 2 (by norm_num) (by rw [e0]; exact ht.1) h1 h2 h3
  rw [e0] at a1 a2 a3
  rw [a1] at h4
  have := g_close hl a2 (mean_size a2) a3 (c1 := -0.4065) (c2 := 0.1727) (g_jmax_lunar _ _) (by decide +kernel) ht.2 h4
  exact lunar_close hl this hc h5

set_option maxHeartbeats 1000000 in
theorem example_elements : Moonphase.snap 2000.04 0.5 = 0.5 ∧ |Real.sin (Eclipse.argF (0.5 * Moonphase.ck))| ≤ 0.08 ∧ LunarClear (lunarG 2000.04) ∧
    1 < (1.0128 - (lunarG 2000.04).u - |(lunarG 2000.04).γ|) / 0.545 := by
  have hs : Moonphase.snap 2000.04 0.5 = 0.5 := by
    unfold Moonphase.snap
    have : ⌊((2000.04 : ℝ) - 2000) * 12.3685 - 0.5 + 0.5⌋ = 0 := by rw [Int.floor_eq_iff]; norm_num
    rw [this]; norm_num
  obtain ⟨d1, d2⟩ := Verif.Lemmas.deg_num
  norm_num at d1 d2
  have e : 2 * π = 360 * deg := by unfold deg; ring
  have hF : -0.0692 ≤ Eclipse.argF (0.5 * Moonphase.ck) - 2 * π ∧ Eclipse.argF (0.5 * Moonphase.ck) - 2 * π ≤ -0.0688 := by
    rw [e]
    unfold Eclipse.argF Moonphase.ck
    simp only [hornerR, List.foldr]
    norm_num
    constructor <;> linarith
  have hM : 0.29 ≤ Eclipse.argM (0.5 * Moonphase.ck) ∧ Eclipse.argM (0.5 * Moonphase.ck) ≤ 0.3 := by
    unfold Eclipse.argM Moonphase.ck
    simp only [hornerR, List.foldr]
    norm_num
    constructor <;> linarith
  have hM' : 0 ≤ Eclipse.argM' (0.5 * Moonphase.ck) - 2 * π ∧ Eclipse.argM' (0.5 * Moonphase.ck) - 2 * π ≤ 1 := by
    rw [e]
    unfold Eclipse.argM' Moonphase.ck
    simp only [hornerR, List.foldr]
    norm_num
    constructor <;> linarith
  have hE : 0.99 ≤ Eclipse.argE (0.5 * Moonphase.ck) ∧ Eclipse.argE (0.5 * Moonphase.ck) ≤ 1 := by
    unfold Eclipse.argE Moonphase.ck
    simp only [hornerR, List.foldr]
    norm_num
  have hsF : |Real.sin (Eclipse.argF (0.5 * Moonphase.ck))| ≤ 0.08 := by
    rw [← sin_sub_two_pi]
    refine abs_sin_le_abs.trans ?_
    rw [abs_le]
    norm_num at *
    constructor <;> linarith
  have hb : ¬ |Real.sin (Eclipse.argF (0.5 * Moonphase.ck))| > 0.36 := by
    rw [gt_iff_lt, not_lt]; exact hsF.trans (by norm_num)
  have hγ : (lunarG 2000.04).γ = Eclipse.gammaOf (Eclipse.argE (0.5 * Moonphase.ck)) (Eclipse.argM (0.5 * Moonphase.ck)) (Eclipse.argM' (0.5 * Moonphase.ck))
      (Eclipse.argF (0.5 * Moonphase.ck) - 0.02665 * deg * Real.sin (Eclipse.argΩ (0.5 * Moonphase.ck))) := by
    unfold lunarG Eclipse.g
    rw [hs, if_neg hb]
  have hu : (lunarG 2000.04).u = Eclipse.uOf (Eclipse.argE (0.5 * Moonphase.ck)) (Eclipse.argM (0.5 * Moonphase.ck)) (Eclipse.argM' (0.5 * Moonphase.ck)) := by
    unfold lunarG Eclipse.g
    rw [hs, if_neg hb]
  have hF1 : -0.0705 ≤ Eclipse.argF (0.5 * Moonphase.ck) - 0.02665 * deg * Real.sin (Eclipse.argΩ (0.5 * Moonphase.ck)) - 2 * π ∧
      Eclipse.argF (0.5 * Moonphase.ck) - 0.02665 * deg * Real.sin (Eclipse.argΩ (0.5 * Moonphase.ck)) - 2 * π ≤ 0 := by
    have a1 := neg_one_le_sin (Eclipse.argΩ (0.5 * Moonphase.ck))
    have a2 := sin_le_one (Eclipse.argΩ (0.5 * Moonphase.ck))
    norm_num at *
    constructor <;> nlinarith
  generalize Eclipse.argF (0.5 * Moonphase.ck) - 0.02665 * deg * Real.sin (Eclipse.argΩ (0.5 * Moonphase.ck)) = F1 at *
  generalize Eclipse.argE (0.5 * Moonphase.ck) = E at *
  generalize Eclipse.argM (0.5 * Moonphase.ck) = M at *
  generalize Eclipse.argM' (0.5 * Moonphase.ck) = M' at *
  have sF : -0.0705 ≤ Real.sin F1 ∧ Real.sin F1 ≤ 0 := by
    rw [← sin_sub_two_pi F1]
    have p3 := pi_gt_three
    constructor
    · have := (abs_le.mp (abs_sin_le_abs (x := F1 - 2 * π))).1
      rw [abs_of_nonpos hF1.2] at this
      linarith [hF1.1]
    · exact sin_nonpos_of_nonpos_of_neg_pi_le hF1.2 (by norm_num at *; linarith)
  have cF : 0 ≤ Real.cos F1 := by
    rw [← cos_sub_two_pi F1]
    have p3 := pi_gt_three
    exact cos_nonneg_of_neg_pi_div_two_le_of_le (by norm_num at *; linarith) (by linarith)
  have cM' : 0 ≤ Real.cos M' := by
    rw [← cos_sub_two_pi M']
    have p3 := pi_gt_three
    exact cos_nonneg_of_neg_pi_div_two_le_of_le (by linarith) (by linarith)
  have sM : 0.25 ≤ Real.sin M := by
    have := sin_gt_sub_cube (x := M) (by norm_num at *; linarith)
    have h3 : M ^ 3 ≤ 0.3 ^ 3 := by
      apply pow_le_pow_left₀ (by norm_num at *; linarith) hM.2
    norm_num at *
    linarith
  clear hM hM' hF hF1 hb d1 d2 e
  obtain ⟨E1, E2⟩ := hE
  obtain ⟨F1a, F1b⟩ := sF
  have tm : ∀ c x : ℝ, |x| ≤ 1 → |c * x * E| ≤ |c| := by
    intro c x hx
    rw [abs_mul, abs_mul, abs_of_nonneg (a := E) (by norm_num at *; linarith)]
    have : |x| * E ≤ 1 := mul_le_one₀ hx (by norm_num at *; linarith) E2
    have := mul_le_mul_of_nonneg_left this (abs_nonneg c)
    linarith
  have tn : ∀ c x : ℝ, |x| ≤ 1 → |c * x| ≤ |c| := by
    intro c x hx
    rw [abs_mul]
    have := mul_le_mul_of_nonneg_left hx (abs_nonneg c)
    linarith
  have Pb : 0 - 0.031 ≤ Eclipse.P E M M' F1 ∧ Eclipse.P E M M' F1 ≤ 0.3 := by
    unfold Eclipse.P
    have t0 := abs_le.mp (tm 0.207 _ (abs_sin_le_one M))
    have t0' : 0.05 ≤ 0.207 * Real.sin M * E := by
      have : 0.25 * 0.99 ≤ Real.sin M * E := mul_le_mul sM E1 (by norm_num) (by norm_num at *; linarith)
      norm_num at *
      linarith
    have t1 := abs_le.mp (tm 0.0024 _ (abs_sin_le_one (2 * M)))
    have t2 := abs_le.mp (tn (-0.0392) _ (abs_sin_le_one M'))
    have t3 := abs_le.mp (tn 0.0116 _ (abs_sin_le_one (2 * M')))
    have t4 := abs_le.mp (tm (-0.0073) _ (abs_sin_le_one (M' + M)))
    have t5 := abs_le.mp (tm 0.0067 _ (abs_sin_le_one (M' - M)))
    have t6 := abs_le.mp (tn 0.0118 _ (abs_sin_le_one (2 * F1)))
    norm_num [abs_of_neg] at t0 t0' t1 t2 t3 t4 t5 t6 ⊢
    constructor <;> linarith
  have Qb : 0 ≤ Eclipse.Q E M M' ∧ Eclipse.Q E M M' ≤ 5.6 := by
    unfold Eclipse.Q
    have t1 := abs_le.mp (tm (-0.0048) _ (abs_cos_le_one M))
    have t2 := abs_le.mp (tm 0.002 _ (abs_cos_le_one (2 * M)))
    have t3 := abs_le.mp (tn (-0.3299) _ (abs_cos_le_one M'))
    have t4 := abs_le.mp (tm (-0.006) _ (abs_cos_le_one (M' + M)))
    have t5 := abs_le.mp (tm 0.0041 _ (abs_cos_le_one (M' - M)))
    norm_num [abs_of_neg] at t1 t2 t3 t4 t5 ⊢
    constructor <;> linarith
  have ub : Eclipse.uOf E M M' ≤ 0.012 ∧ -0.03 ≤ Eclipse.uOf E M M' := by
    unfold Eclipse.uOf
    have t1 := abs_le.mp (tm 0.0046 _ (abs_cos_le_one M))
    have t2 := cos_le_one M'
    have t3 := abs_le.mp (tn 0.0004 _ (abs_cos_le_one (2 * M')))
    have t4 := abs_le.mp (tn (-0.0005) _ (abs_cos_le_one (M + M')))
    norm_num [abs_of_neg] at t1 t3 t4 ⊢
    constructor <;> linarith
  have γb : |Eclipse.gammaOf E M M' F1| ≤ 0.43 := by
    unfold Eclipse.gammaOf
    rw [abs_mul]
    have c1 := cos_le_one F1
    obtain ⟨P1, P2⟩ := Pb
    obtain ⟨Q1, Q2⟩ := Qb
    generalize Eclipse.P E M M' F1 = P at *
    generalize Eclipse.Q E M M' = Q at *
    have w : |1 - 0.0048 * (|Real.cos F1|)| ≤ 1 := by
      rw [abs_of_nonneg cF, abs_le]
      norm_num
      constructor <;> linarith
    have g : |P * Real.cos F1 + Q * Real.sin F1| ≤ 0.43 := by
      have k1 : -0.0705 * 5.6 ≤ Q * Real.sin F1 := by nlinarith
      have k2 : Q * Real.sin F1 ≤ 0 := mul_nonpos_of_nonneg_of_nonpos Q1 F1b
      have k3 : -0.031 ≤ P * Real.cos F1 := by norm_num at *; nlinarith
      have k4 : P * Real.cos F1 ≤ 0.3 := by norm_num at *; nlinarith
      rw [abs_le]
      norm_num at *
      constructor <;> linarith
    have := mul_le_mul g w (abs_nonneg _) (by norm_num)
    rwa [mul_one] at this
  rw [← hγ] at γb
  rw [← hu] at ub
  have m1 : 1.04 ≤ (1.0128 - (lunarG 2000.04).u - |(lunarG 2000.04).γ|) / 0.545 := by
    rw [le_div_iff₀ (by norm_num)]
    norm_num at *
    linarith
  have m2 : 1 ≤ (1.5573 + (lunarG 2000.04).u - |(lunarG 2000.04).γ|) / 0.545 := by
    rw [le_div_iff₀ (by norm_num)]
    norm_num at *
    linarith
  have n1 : (1e-7 : ℝ) < 1.04 - 1 := by norm_num
  have n2 : (1e-7 : ℝ) < 1 := by norm_num
  have n3 : (1 : ℝ) < 1.04 := by norm_num
  refine ⟨hs, hsF, ⟨?_, ?_, ?_⟩, by linarith⟩
  · rw [abs_of_nonneg (by linarith)]; linarith
  · rw [abs_of_nonneg (by linarith)]; linarith
  · rw [abs_of_nonneg (by linarith)]; linarith

theorem grun_exists (l : Trig) (k jm : ℝ) (jE : Ex) : ∃ r, GRun l k jm jE r := by
  obtain ⟨a, ha⟩ := run_exists l (two k jm) (q 36 100)
  obtain ⟨b, hb⟩ := run_exists l (two k jm) (Ex.abs (Ex.sin Eclipse64.F))
  by_cases h : a < b
  · exact ⟨⟨false, 0, 0, 0, 0⟩, true, ⟨a, b, ha, hb, by simpa using h⟩, fun _ => rfl, by simp⟩
  · obtain ⟨x1, h1⟩ := run_exists l (two k jm) jE
    obtain ⟨x2, h2⟩ := run_exists l (two k jm) Eclipse64.γ
    obtain ⟨x3, h3⟩ := run_exists l (two k jm) Eclipse64.u
    obtain ⟨x4, h4⟩ := run_exists l (two k jm) Eclipse64.M'
    exact ⟨⟨true, x1, x2, x3, x4⟩, false, ⟨a, b, ha, hb, by simpa using h⟩, by simp, fun _ => ⟨rfl, h1, h2, h3, h4⟩⟩

theorem lunarRun_exists (l : Trig) (year : ℝ) : ∃ s, LunarRun l year s := by
  obtain ⟨x, hx⟩ := run_exists l (fun _ => year) (snapPhase (q 2 4))
  obtain ⟨z, hz⟩ := run_exists l (fun _ => year) (q 2 4)
  obtain ⟨jm, hj⟩ := run_exists l (fun _ => fl (⌊x⌋ + z)) Moonphase64.mean
  obtain ⟨r, hr⟩ := grun_exists l (fl (⌊x⌋ + z)) jm Eclipse64.jmaxLunar
  have key : ∃ s, LunarOfRun l r s := by
    rcases he : r.eclipse with _ | _
    · exact ⟨⟨.None, r.jmax, r.γ, 0, 0, 0, 0, 0, 0⟩, rfl, rfl, fun _ => ⟨rfl, rfl, rfl, rfl, rfl, rfl, rfl⟩, by simp [he]⟩
    · obtain ⟨x1, h1⟩ := run_exists l (two r.γ r.u) (q 12848 10000 + v 1)
      obtain ⟨x2, h2⟩ := run_exists l (two r.γ r.u) (q 7403 10000 - v 1)
      obtain ⟨mag, h3⟩ := run_exists l (two r.γ r.u) ((q 10128 10000 - v 1 - Ex.abs (v 0)) / q 545 1000)
      obtain ⟨mag', h4⟩ := run_exists l (two r.γ r.u) ((q 15573 10000 + v 1 - Ex.abs (v 0)) / q 545 1000)
      obtain ⟨n, h5⟩ := run_exists l (fun _ => r.M') (q 5458 10000 + q 4 100 * Ex.cos (v 0))
      obtain ⟨yt, h6⟩ := run_exists l (two r.γ r.u) ((q 4678 10000 - v 1) * (q 4678 10000 - v 1) - v 0 * v 0)
      obtain ⟨yp, h7⟩ := run_exists l (two r.γ r.u) ((q 10128 10000 - v 1) * (q 10128 10000 - v 1) - v 0 * v 0)
      obtain ⟨yh, h8⟩ := run_exists l (two r.γ r.u) ((q 15573 10000 + v 1) * (q 15573 10000 + v 1) - v 0 * v 0)
      have fin : ∃ (K : Eclipse.Kind) (m a b c : ℝ),
          (1 < mag → K = .Total ∧ m = mag ∧ a = fl (fl √yt / n) ∧ b = fl (fl √yp / n) ∧ c = fl (fl √yh / n)) ∧
          (¬ 1 < mag → 0 < mag → K = .Umbral ∧ m = mag ∧ a = 0 ∧ b = fl (fl √yp / n) ∧ c = fl (fl √yh / n)) ∧
          (¬ 0 < mag → mag' < 0 → K = .None ∧ m = mag' ∧ a = 0 ∧ b = 0 ∧ c = 0) ∧
          (¬ 0 < mag → ¬ mag' < 0 → K = .Penumbral ∧ m = mag' ∧ a = 0 ∧ b = 0 ∧ c = fl (fl √yh / n)) := by
        by_cases m1 : 1 < mag
        · have m0 : 0 < mag := lt_trans one_pos m1
          exact ⟨_, _, _, _, _, fun _ => ⟨rfl, rfl, rfl, rfl, rfl⟩, fun h => absurd m1 h, fun h => absurd m0 h, fun h => absurd m0 h⟩
        · by_cases m0 : 0 < mag
          · exact ⟨_, _, _, _, _, fun h => absurd h m1, fun _ _ => ⟨rfl, rfl, rfl, rfl, rfl⟩, fun h => absurd m0 h, fun h => absurd m0 h⟩
          · by_cases m2 : mag' < 0
            · exact ⟨_, _, _, _, _, fun h => absurd h m1, fun _ h => absurd h m0, fun _ _ => ⟨rfl, rfl, rfl, rfl, rfl⟩, fun _ h => absurd m2 h⟩
            · exact ⟨_, _, _, _, _, fun h => absurd h m1, fun _ h => absurd h m0, fun _ h => absurd h m2, fun _ _ => ⟨rfl, rfl, rfl, rfl, rfl⟩⟩
      obtain ⟨K, m, a, b, c, f1, f2, f3, f4⟩ := fin
      exact ⟨⟨K, r.jmax, r.γ, x1, x2, m, a, b, c⟩, rfl, rfl, by simp [he], fun _ => ⟨mag, mag', n, yt, fl √yt, yp, fl √yp, yh, fl √yh, h1, h2, h3, h4, h5, h6,
        fun _ => rfl, h7, fun _ => rfl, h8, fun _ => rfl, f1, f2, f3, f4⟩⟩
  obtain ⟨s, hs⟩ := key
  exact ⟨s, x, z, jm, r, hx, hz, ⟨x, z, hx, hz, hj⟩, hr, hs⟩

/-- The total eclipse of the Moon of 2000 January 21: the program has a result, and whatever it is the eclipse is total. -/
theorem C185_example : ∃ l : Trig, l.Ok ∧ ∃ s, LunarRun l 2000.04 s ∧ s.kind = .Total := by
  refine ⟨_, trig_ok, ?_⟩
  obtain ⟨s, hs⟩ := lunarRun_exists ⟨fun x => fl (Real.sin x), fun x => fl (Real.cos x)⟩ 2000.04
  obtain ⟨e1, e2, e3, e4⟩ := example_elements
  refine ⟨s, hs, ?_⟩
  have hb : ¬ |Real.sin (Eclipse.argF (0.5 * Moonphase.ck))| > 0.36 := by
    rw [gt_iff_lt, not_lt]; exact e2.trans (by norm_num)
  have ht : NoTie 2000.04 0.5 := by
    constructor
    · have hf : Int.fract (((2000.04 : ℝ) - 2000) * 12.3685 - 0.5) = 0.99474 := by
        rw [Int.fract_eq_iff]
        refine ⟨by norm_num, by norm_num, -1, by norm_num⟩
      rw [hf]
      norm_num [abs_of_pos]
    · rw [e1, abs_of_nonpos (by norm_num at *; linarith)]
      norm_num at *
      linarith
  have := (C185_lunar _ trig_ok 2000.04 (by norm_num [abs_le]) ht (fun _ => e3) s hs).kind
  rw [this]
  have he : (lunarG 2000.04).eclipse = true := by
    unfold lunarG
    rw [e1]
    exact (g64_elements _ _ _ _ hb).1
  unfold Eclipse.Lunar
  change (Eclipse.lunarOf (lunarG 2000.04)).kind = _
  unfold Eclipse.lunarOf
  rw [if_neg (by simp [he])]
  dsimp only
  rw [if_pos e4]

end Verif.Props
