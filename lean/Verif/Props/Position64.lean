import Verif.Model.Position64
import Verif.Model.Nutation
/-
Position of the Moon and nutation in double precision, against the same formulas in exact arithmetic.
-/
namespace Verif.Props

open Real Verif.Model Verif.Go.F64 Verif.Go.F64.Ex

/-- `out` may be computed for the expression at the date jde: the code first forms jde − 2451545. -/
def DateRun (l : Trig) (e : Ex) (jde out : ℝ) : Prop := Run l (fun _ => fl (jde - 2451545)) e out

/-- The environment: a difference of dates of at most forty centuries. -/
def dateEnv : List (ℕ × ℕ) := [(1461000 * 2 ^ 64, 1461000 * 2 ^ 75 + 1)]

theorem date_env {jde : ℝ} (h : |jde - 2451545| ≤ 1461000) :
    ∀ i p, dateEnv[i]? = some p → Fits ((fun _ => jde - 2451545 : ℕ → ℝ) i) ((fun _ => fl (jde - 2451545) : ℕ → ℝ) i) p := by
  intro i p hp
  unfold dateEnv at hp
  rcases i with _ | i
  · simp only [List.getElem?_cons_zero, Option.some.injEq] at hp
    subst hp
    constructor
    · dsimp only
      push_cast
      norm_num
      exact h
    · dsimp only
      refine (fl_err _).trans ?_
      have : |jde - 2451545| / 2 ^ 53 ≤ 1461000 / 2 ^ 53 := by gcongr
      push_cast
      norm_num at *
      linarith
  · simp at hp

theorem date_bound {l : Trig} (hl : l.Ok) {e : Ex} {jde out : ℝ} (h : |jde - 2451545| ≤ 1461000) (hr : DateRun l e jde out) {m ε : ℕ} {δ : ℝ}
    (hε : (ε : ℝ) / 2 ^ 128 ≤ δ) (hw : within dateEnv e m ε = true) : |out - e.val (fun _ => jde - 2451545)| ≤ δ :=
  (within_bound hl (date_env h) hr hw).2.trans hε

namespace Moonposition64v

open Moonposition64

theorem T_v (jde : ℝ) : T.val (fun _ => jde - 2451545) = J2000Century jde := by
  simp only [T, val_div, val_q, val_v, J2000Century]; norm_num

variable {ρ : ℕ → ℝ} {t : ℝ} (hT : T.val ρ = t)
include hT

theorem D_v : D.val ρ = Moonposition.argD t := by
  simp only [D, horner, val_add, val_mul, val_p, hT, Moonposition.argD, hornerR, List.foldr, deg]; norm_num; ring
theorem M_v : M.val ρ = Moonposition.argM t := by
  simp only [M, horner, val_add, val_mul, val_p, hT, Moonposition.argM, hornerR, List.foldr, deg]; norm_num; ring
theorem M'_v : M'.val ρ = Moonposition.argM' t := by
  simp only [M', horner, val_add, val_mul, val_p, hT, Moonposition.argM', hornerR, List.foldr, deg]; norm_num; ring
theorem F_v : F.val ρ = Moonposition.argF t := by
  simp only [F, horner, val_add, val_mul, val_p, hT, Moonposition.argF, hornerR, List.foldr, deg]; norm_num; ring
theorem L'_v : L'.val ρ = Moonposition.meanLon t := by
  simp only [L', horner, val_add, val_mul, val_p, hT, Moonposition.meanLon, hornerR, List.foldr, deg]; norm_num; ring
theorem E_v : E.val ρ = Moonposition.ecc t := by
  simp only [E, horner, val_add, val_mul, val_q, hT, Moonposition.ecc, hornerR, List.foldr]; norm_num

theorem arg_v (r : Moonposition.Row) : (arg r).val ρ = r.arg t := by
  simp only [arg, val_add, val_mul, val_q, D_v hT, M_v hT, M'_v hT, F_v hT, Moonposition.Row.arg, Nat.cast_one, div_one]

theorem fac_v (r : Moonposition.Row) (x : Ex) : (fac r x).val ρ = x.val ρ * r.fac (Moonposition.ecc t) := by
  unfold fac Moonposition.Row.fac
  split_ifs
  · rw [mul_one]
  · rw [val_mul, E_v hT]
  · rw [val_mul, E2, val_mul, E_v hT]
  · rw [val_q]; simp

theorem suml_v : suml.val ρ = Moonposition.suml t := by
  unfold suml Moonposition.suml
  rw [val_sumFrom, List.map_map]
  congr 1
  · simp only [l0, A1, A2, val_add, val_sub, val_mul, val_q, val_p, val_sin, hT, L'_v hT, F_v hT, deg]
    norm_num
    ring_nf
  · congr 1
    apply List.map_congr_left
    intro r _
    simp only [Function.comp, fac_v hT, val_mul, val_q, val_sin, arg_v hT, Nat.cast_one, div_one]

theorem sumr_v : sumr.val ρ = Moonposition.sumr t := by
  unfold sumr Moonposition.sumr
  rw [val_sumFrom, List.map_map, r0, val_q, Int.cast_zero, zero_div, zero_add]
  congr 1
  apply List.map_congr_left
  intro r _
  simp only [Function.comp, fac_v hT, val_mul, val_q, val_cos, arg_v hT, Nat.cast_one, div_one]

theorem sumb_v : sumb.val ρ = Moonposition.sumb t := by
  unfold sumb Moonposition.sumb
  rw [val_sumFrom, List.map_map]
  congr 1
  · simp only [b0, A1, A3, val_add, val_sub, val_mul, val_q, val_p, val_sin, hT, L'_v hT, M'_v hT, F_v hT, deg]
    norm_num
    ring_nf
  · congr 1
    apply List.map_congr_left
    intro r _
    simp only [Function.comp, fac_v hT, val_mul, val_q, val_sin, arg_v hT, Nat.cast_one, div_one]

end Moonposition64v

namespace Nutation64v

open Nutation64

theorem T_v (jde : ℝ) : T.val (fun _ => jde - 2451545) = J2000Century jde := by
  simp only [T, val_div, val_q, val_v, J2000Century]; norm_num

variable {ρ : ℕ → ℝ} {t : ℝ} (hT : T.val ρ = t)
include hT

theorem D_v : D.val ρ = Nutation.argD t := by
  simp only [D, horner, val_add, val_mul, val_div, val_q, val_p, hT, Nutation.argD, hornerR, List.foldr]; norm_num
theorem M_v : M.val ρ = Nutation.argM t := by
  simp only [M, horner, val_add, val_mul, val_div, val_q, val_p, hT, Nutation.argM, hornerR, List.foldr]; norm_num
theorem N_v : N.val ρ = Nutation.argN t := by
  simp only [N, horner, val_add, val_mul, val_div, val_q, val_p, hT, Nutation.argN, hornerR, List.foldr]; norm_num
theorem F_v : F.val ρ = Nutation.argF t := by
  simp only [F, horner, val_add, val_mul, val_div, val_q, val_p, hT, Nutation.argF, hornerR, List.foldr]; norm_num
theorem Ω_v : Ω.val ρ = Nutation.argΩ t := by
  simp only [Ω, horner, val_add, val_mul, val_div, val_q, val_p, hT, Nutation.argΩ, hornerR, List.foldr]; norm_num

omit hT in
/-- The row as the model has it. -/
noncomputable def row (r : Row) : Nutation.Row := ⟨r.d, r.m, r.n, r.f, r.w, r.s0, r.s1 / 10, r.c0, r.c1 / 10⟩

omit hT in
theorem table_v : Nutation.table22A = table.map row := by
  simp only [Nutation.table22A, table, List.map, row]
  norm_num

theorem arg_v (r : Row) : (arg r).val ρ = (row r).arg t := by
  simp only [arg, val_add, val_mul, val_q, D_v hT, M_v hT, N_v hT, F_v hT, Ω_v hT, Nutation.Row.arg, row, Nat.cast_one, div_one]

theorem psi_v : psi.val ρ = (Nutation.table22A.map fun r : Nutation.Row => Real.sin (r.arg t) * (r.s0 + r.s1 * t)).sum := by
  unfold psi
  rw [val_sumFrom, List.map_map, val_q, Int.cast_zero, zero_div, zero_add, table_v, List.map_map, List.map_reverse, List.sum_reverse]
  congr 1
  apply List.map_congr_left
  intro r _
  simp only [Function.comp, val_add, val_mul, val_q, val_sin, arg_v hT, hT, row, Nat.cast_one, div_one, Nat.cast_ofNat]

theorem eps_v : eps.val ρ = (Nutation.table22A.map fun r : Nutation.Row => Real.cos (r.arg t) * (r.c0 + r.c1 * t)).sum := by
  unfold eps
  rw [val_sumFrom, List.map_map, val_q, Int.cast_zero, zero_div, zero_add, table_v, List.map_map, List.map_reverse, List.sum_reverse]
  congr 1
  apply List.map_congr_left
  intro r _
  simp only [Function.comp, val_add, val_mul, val_q, val_cos, arg_v hT, hT, row, Nat.cast_one, div_one, Nat.cast_ofNat]

end Nutation64v

theorem deg_ne : deg ≠ 0 := by unfold deg; positivity
theorem sec_ne : Nutation.sec ≠ 0 := by unfold Nutation.sec; positivity

/-- The Moon within forty centuries of J2000: the mean longitude to 2.3·10⁻¹⁰ radian, the sums of periodic terms which are added to it and which are the
latitude to 5·10⁻⁹ degree, the distance to 1.5 centimetres. -/
theorem C184_moon (l : Trig) (hl : l.Ok) (jde out : ℝ) (h : |jde - 2451545| ≤ 1461000) :
    (DateRun l Moonposition64.L' jde out → |out - Moonposition.meanLon (J2000Century jde)| ≤ 2.3e-10) ∧
    (DateRun l Moonposition64.lonDeg jde out → |out - Moonposition.suml (J2000Century jde) * 1e-6| ≤ 5e-9) ∧
    (DateRun l Moonposition64.latDeg jde out → |out - (Moonposition.Position jde).2.1 / deg| ≤ 5e-9) ∧
    (DateRun l Moonposition64.dist jde out → |out - (Moonposition.Position jde).2.2| ≤ 1.5e-5) := by
  have hT := Moonposition64v.T_v jde
  have e1 : ((78264944391815846596576159709 : ℕ) : ℝ) / 2 ^ 128 ≤ 2.3e-10 := by norm_num
  have e2 : ((1701411834604692317316873037158 : ℕ) : ℝ) / 2 ^ 128 ≤ 5e-9 := by norm_num
  have e3 : ((5104235503814076951950619111476523 : ℕ) : ℝ) / 2 ^ 128 ≤ 1.5e-5 := by norm_num
  refine ⟨fun hr => ?_, fun hr => ?_, fun hr => ?_, fun hr => ?_⟩
  · have := date_bound hl h hr e1 (m := 2 ^ 100) (by decide +kernel)
    rwa [Moonposition64v.L'_v hT] at this
  · have := date_bound hl h hr e2 (m := 2 ^ 100) (by decide +kernel)
    rw [Moonposition64.lonDeg, val_mul, Moonposition64v.suml_v hT, val_q] at this
    norm_num at this ⊢
    exact this
  · have := date_bound hl h hr e2 (m := 2 ^ 100) (by decide +kernel)
    rw [Moonposition64.latDeg, val_mul, Moonposition64v.sumb_v hT, val_q] at this
    simp only [Moonposition.Position]
    rw [mul_div_assoc _ deg, div_self deg_ne, mul_one]
    norm_num at this ⊢
    exact this
  · have := date_bound hl h hr e3 (m := 2 ^ 100) (by decide +kernel)
    rw [Moonposition64.dist, val_add, val_mul, Moonposition64v.sumr_v hT, val_q, val_q] at this
    simp only [Moonposition.Position]
    norm_num at this ⊢
    exact this

/-- Nutation in seconds of arc, within forty centuries of J2000. -/
theorem C184_nutation (l : Trig) (hl : l.Ok) (jde out : ℝ) (h : |jde - 2451545| ≤ 1461000) :
    (DateRun l Nutation64.psiSec jde out → |out - (Nutation.Nutation jde).1 / Nutation.sec| ≤ 3.2e-9) ∧
    (DateRun l Nutation64.epsSec jde out → |out - (Nutation.Nutation jde).2 / Nutation.sec| ≤ 3.2e-9) ∧
    (DateRun l Nutation64.approxPsi jde out → |out - (Nutation.ApproxNutation jde).1 / Nutation.sec| ≤ 2.5e-10) ∧
    (DateRun l Nutation64.approxEps jde out → |out - (Nutation.ApproxNutation jde).2 / Nutation.sec| ≤ 2.5e-10) := by
  have hT := Nutation64v.T_v jde
  have e1 : ((1088903574147003083082798743781 : ℕ) : ℝ) / 2 ^ 128 ≤ 3.2e-9 := by norm_num
  have e2 : ((85070591730234615865843651857 : ℕ) : ℝ) / 2 ^ 128 ≤ 2.5e-10 := by norm_num
  have ea : (jde - 2451545) / 36525 = J2000Century jde := rfl
  refine ⟨fun hr => ?_, fun hr => ?_, fun hr => ?_, fun hr => ?_⟩
  · have := date_bound hl h hr e1 (m := 2 ^ 100) (by decide +kernel)
    rw [Nutation64.psiSec, val_mul, Nutation64v.psi_v hT, val_q] at this
    simp only [Nutation.Nutation]
    rw [mul_div_assoc _ Nutation.sec, div_self sec_ne, mul_one]
    norm_num at this ⊢
    exact this
  · have := date_bound hl h hr e1 (m := 2 ^ 100) (by decide +kernel)
    rw [Nutation64.epsSec, val_mul, Nutation64v.eps_v hT, val_q] at this
    simp only [Nutation.Nutation]
    rw [mul_div_assoc _ Nutation.sec, div_self sec_ne, mul_one]
    norm_num at this ⊢
    exact this
  · have := date_bound hl h hr e2 (m := 2 ^ 100) (by decide +kernel)
    simp only [Nutation64.approxPsi, Nutation64.aΩ, Nutation64.aL, Nutation64.aN, val_add, val_sub, val_mul, val_div, val_sin, val_q, val_p, hT] at this
    simp only [Nutation.ApproxNutation, ea]
    rw [mul_div_assoc _ Nutation.sec, div_self sec_ne, mul_one]
    norm_num at this ⊢
    exact this
  · have := date_bound hl h hr e2 (m := 2 ^ 100) (by decide +kernel)
    simp only [Nutation64.approxEps, Nutation64.aΩ, Nutation64.aL, Nutation64.aN, val_add, val_sub, val_mul, val_div, val_cos, val_q, val_p, hT] at this
    simp only [Nutation.ApproxNutation, ea]
    rw [mul_div_assoc _ Nutation.sec, div_self sec_ne, mul_one]
    norm_num at this ⊢
    exact this

/-- The mean obliquity in seconds of arc: `z` is what package unit makes of 23°26′21.448″. -/
theorem C184_obliquity (l : Trig) (hl : l.Ok) (jde z out : ℝ) (h : |jde - 2451545| ≤ 1461000) (hz : |z - 84381.448| ≤ 2e-11) :
    (Run l (fun i => if i = 0 then fl (jde - 2451545) else z) Nutation64.meanObl out → |out - Nutation.MeanObliquity jde / Nutation.sec| ≤ 4e-11) ∧
    (Run l (fun i => if i = 0 then fl (jde - 2451545) else z) Nutation64.meanOblLaskar out →
      |out - Nutation.MeanObliquityLaskar jde / Nutation.sec| ≤ 4e-11) := by
  have e1 : ((13611294676837538538534984297 : ℕ) : ℝ) / 2 ^ 128 ≤ 4e-11 := by norm_num
  have henv : ∀ i p, (dateEnv ++ [(84382 * 2 ^ 64, 6805647338418769269267492149)])[i]? = some p →
      Fits ((fun i => if i = 0 then jde - 2451545 else 84381.448 : ℕ → ℝ) i) ((fun i => if i = 0 then fl (jde - 2451545) else z : ℕ → ℝ) i) p := by
    intro i p hp
    rcases i with _ | _ | i
    · exact date_env h 0 p hp
    · simp only [dateEnv, List.cons_append, List.nil_append, List.getElem?_cons_succ, List.getElem?_cons_zero, Option.some.injEq] at hp
      subst hp
      constructor
      · dsimp only
        push_cast
        norm_num
      · dsimp only
        refine hz.trans ?_
        push_cast
        norm_num
    · simp [dateEnv] at hp
  have hT : Nutation64.T.val (fun i => if i = 0 then jde - 2451545 else 84381.448 : ℕ → ℝ) = J2000Century jde := Nutation64v.T_v jde
  refine ⟨fun hr => ?_, fun hr => ?_⟩
  · have := (within_bound hl henv hr (m := 2 ^ 100) (ε := 13611294676837538538534984297) (by decide +kernel)).2.trans e1
    simp only [Nutation64.meanObl, horner, val_add, val_mul, val_q, val_v, hT] at this
    simp only [Nutation.MeanObliquity, hornerR, List.foldr]
    rw [mul_div_assoc _ Nutation.sec, div_self sec_ne, mul_one]
    norm_num at this ⊢
    exact this
  · have := (within_bound hl henv hr (m := 2 ^ 100) (ε := 13611294676837538538534984297) (by decide +kernel)).2.trans e1
    simp only [Nutation64.meanOblLaskar, horner, val_add, val_mul, val_q, val_v, hT] at this
    simp only [Nutation.MeanObliquityLaskar, hornerR, List.foldr]
    rw [mul_div_assoc _ Nutation.sec, div_self sec_ne, mul_one]
    norm_num at this ⊢
    exact this

/-- The program has a result, and at the epoch 1992 April 12 of the example in the book the distance is right to 1.5 centimetres. -/
theorem C184_example : ∃ l : Trig, l.Ok ∧ ∃ out, DateRun l Moonposition64.dist 2448724.5 out ∧ |out - (Moonposition.Position 2448724.5).2.2| ≤ 1.5e-5 := by
  refine ⟨_, trig_ok, ?_⟩
  obtain ⟨out, ho⟩ := run_exists ⟨fun x => fl (Real.sin x), fun x => fl (Real.cos x)⟩ (fun _ => fl (2448724.5 - 2451545)) Moonposition64.dist
  exact ⟨out, ho, (C184_moon _ trig_ok 2448724.5 out (by norm_num [abs_le])).2.2.2 ho⟩

end Verif.Props
