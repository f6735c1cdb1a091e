import Verif.Model.Moon
import Verif.Model.Moon64
/-
Phases of the Moon, perigee and apogee, passages through the nodes, in double precision: the functions as compiled against the same formulas in exact
arithmetic.
-/
namespace Verif.Props

open Real Verif.Model Verif.Go.F64 Verif.Go.F64.Ex

/-- `out` is a value which a function of the form "snap the year to k, then compute" may return.  The snap is floor(arg + …) + h. -/
def SnapRun (l : Trig) (arg : Ex → Ex) (h body : Ex) (year out : ℝ) : Prop :=
  ∃ x z, Run l (fun _ => year) (arg h) x ∧ Run l (fun _ => year) h z ∧ Run l (fun _ => fl (⌊x⌋ + z)) body out

theorem run_q {l : Trig} {ρ : ℕ → ℝ} {n : ℤ} {d : ℕ} {z : ℝ} (h : Run l ρ (q n d) z) : z = fl ((n : ℝ) / d) := by
  unfold q at h
  cases h
  simp [cval]

theorem fl_quarter {n : ℤ} {j : ℕ} (hj : j < 4) (hn : |n| ≤ 2 ^ 40) : fl ((n : ℝ) + fl ((j : ℤ) / (4 : ℕ) : ℝ)) = n + (j : ℝ) / 4 := by
  have e2 : (2 : ℝ) ^ (-2 : ℤ) = 1 / 4 := by rw [zpow_neg]; norm_num
  have hj' : (j : ℤ) < 4 := by exact_mod_cast hj
  have r1 : Rep ((j : ℤ) / (4 : ℕ) : ℝ) := by
    refine ⟨(j : ℤ), -2, ?_, ?_, by norm_num⟩
    · rw [e2]; push_cast; ring
    · rw [abs_of_nonneg (by positivity)]
      linarith
  rw [fl_rep r1]
  have r2 : Rep ((n : ℝ) + (j : ℤ) / (4 : ℕ) : ℝ) := by
    refine ⟨4 * n + j, -2, ?_, ?_, by norm_num⟩
    · rw [e2]; push_cast; ring
    · rw [abs_le] at hn ⊢
      constructor <;> omega
  rw [fl_rep r2]
  push_cast
  ring

/-- The snap: whatever is computed, k is exactly an integer plus the quarter, and as near as can be but for rounding. -/
theorem snap64 {l : Trig} (hl : l.Ok) {arg : Ex → Ex} {j : ℕ} (hj : j < 4) {year y0 r : ℝ} (hy : |year| ≤ 6000) (m : ℕ) (hm : m ≤ 2 ^ 100)
    (hv : ∀ h : Ex, (arg h).val (fun _ => year) = (year - y0) * r - h.val (fun _ => year) + 0.5)
    (hb : within [(6000 * 2 ^ 64, 0)] (arg (q j 4)) m 34028236692093846346337460743 = true)
    {body : Ex} {out : ℝ} (h : SnapRun l arg (q j 4) body year out) :
    ∃ n : ℤ, |(year - y0) * r - (n + (j : ℝ) / 4)| ≤ 1 / 2 + 1e-10 ∧ Run l (fun _ => (n : ℝ) + (j : ℝ) / 4) body out ∧
      (1e-10 < |Int.fract ((year - y0) * r - (j : ℝ) / 4) - 1 / 2| → n = ⌊(year - y0) * r - (j : ℝ) / 4 + 0.5⌋) := by
  obtain ⟨x, z, h1, h2, h3⟩ := h
  obtain ⟨b1, b2⟩ := within_bound hl (env_one (m := 6000) (by exact_mod_cast hy)) h1 hb
  rw [hv, val_q] at b1 b2
  have ej : (((j : ℕ) : ℤ) : ℝ) / ((4 : ℕ) : ℝ) = (j : ℝ) / 4 := by push_cast; ring
  rw [ej] at b1 b2
  have hε : ((34028236692093846346337460743 : ℕ) : ℝ) / 2 ^ 128 ≤ 1e-10 := by norm_num
  have hmr : (m : ℝ) / 2 ^ 64 ≤ 2 ^ 36 := by
    have : (m : ℝ) ≤ (2 ^ 100 : ℕ) := by exact_mod_cast hm
    rw [div_le_iff₀ (by positivity)]
    refine this.trans (by norm_num)
  have b3 := b2.trans hε
  have b4 := b1.trans hmr
  clear b1 b2 hb hmr hε
  generalize hw : (year - y0) * r = w at *
  have h5 : (0.5 : ℝ) = 1 / 2 := by norm_num
  rw [h5] at b3 b4 ⊢
  obtain ⟨δ, hδ⟩ : ∃ δ : ℝ, δ = 1e-10 := ⟨_, rfl⟩
  have d1 : δ ≤ 1 / 100 := by rw [hδ]; norm_num
  have d2 : 0 < δ := by rw [hδ]; norm_num
  rw [← hδ] at b3 ⊢
  clear hδ
  have f1 := Int.floor_le x
  have f2 := Int.lt_floor_add_one x
  rw [abs_le] at b3 b4
  have hj' : (j : ℝ) < 4 := by exact_mod_cast hj
  have hj0 : (0 : ℝ) ≤ j := by positivity
  have hn : |⌊x⌋| ≤ 2 ^ 40 := by
    have p1 : (2 : ℝ) ^ 36 + 10 ≤ 2 ^ 40 := by norm_num
    rw [abs_le]
    constructor
    · have : (-(2 ^ 40) : ℝ) ≤ ⌊x⌋ := by linarith
      exact_mod_cast this
    · have : (⌊x⌋ : ℝ) ≤ 2 ^ 40 := by linarith
      exact_mod_cast this
  rw [run_q h2, fl_quarter hj hn] at h3
  refine ⟨⌊x⌋, ?_, h3, ?_⟩
  · rw [abs_le]; constructor <;> linarith
  · intro hf
    set t := w - (j : ℝ) / 4 with ht
    have g1 := Int.floor_add_fract t
    have g2 := Int.fract_nonneg t
    have g3 := Int.fract_lt_one t
    rcases le_or_gt (Int.fract t) (1 / 2) with hc | hc
    · rw [abs_of_nonpos (by linarith)] at hf
      have e1 : ⌊x⌋ = ⌊t⌋ := by
        rw [Int.floor_eq_iff]
        constructor <;> linarith
      have e2 : ⌊t + 1 / 2⌋ = ⌊t⌋ := by
        rw [Int.floor_eq_iff]
        constructor <;> linarith
      rw [e1, e2]
    · rw [abs_of_pos (by linarith)] at hf
      have e1 : ⌊x⌋ = ⌊t⌋ + 1 := by
        rw [Int.floor_eq_iff]
        push_cast
        constructor <;> linarith
      have e2 : ⌊t + 1 / 2⌋ = ⌊t⌋ + 1 := by
        rw [Int.floor_eq_iff]
        push_cast
        constructor <;> linarith
      rw [e1, e2]

/-! The expressions have the values of the model in exact arithmetic. -/

namespace Moonphase64v

open Moonphase64

variable (ρ : ℕ → ℝ)

theorem T_v : T.val ρ = (Moonphase.newMpK (ρ 0)).T := by
  simp only [T, val_mul, val_q, val_v, Moonphase.newMpK, Moonphase.ck]; norm_num
theorem mean_v : mean.val ρ = Moonphase.mean (Moonphase.newMpK (ρ 0)).T := by
  simp only [mean, horner, val_add, val_mul, val_q, T_v, Moonphase.mean, hornerR, List.foldr, Moonphase.ck]; norm_num
theorem E_v : E.val ρ = (Moonphase.newMpK (ρ 0)).E := by
  simp only [E, horner, val_add, val_mul, val_q, T_v]; simp only [Moonphase.newMpK, hornerR, List.foldr]; norm_num
theorem M_v : M.val ρ = (Moonphase.newMpK (ρ 0)).M := by
  simp only [M, horner, val_add, val_mul, val_p, T_v]; simp only [Moonphase.newMpK, hornerR, List.foldr, deg, Moonphase.ck]; norm_num; ring
theorem M'_v : M'.val ρ = (Moonphase.newMpK (ρ 0)).M' := by
  simp only [M', horner, val_add, val_mul, val_p, T_v]; simp only [Moonphase.newMpK, hornerR, List.foldr, deg, Moonphase.ck]; norm_num; ring
theorem F_v : F.val ρ = (Moonphase.newMpK (ρ 0)).F := by
  simp only [F, horner, val_add, val_mul, val_p, T_v]; simp only [Moonphase.newMpK, hornerR, List.foldr, deg, Moonphase.ck]; norm_num; ring
theorem Ω_v : Ω.val ρ = (Moonphase.newMpK (ρ 0)).Ω := by
  simp only [Ω, horner, val_add, val_mul, val_p, T_v]; simp only [Moonphase.newMpK, hornerR, List.foldr, deg, Moonphase.ck]; norm_num; ring

theorem nfc_nc_v : nfc_nc.val ρ = Moonphase.nfc (Moonphase.newMpK (ρ 0)) Moonphase.nc := by
  simp only [nfc_nc, val_sumFrom, List.map, List.sum_cons, List.sum_nil, val_add, val_sub, val_mul, val_q, val_sin, E_v, M_v, M'_v, F_v, Ω_v]
  generalize Moonphase.newMpK (ρ 0) = m
  simp only [Moonphase.nfc, Moonphase.nc, series, List.map, List.sum_cons, List.sum_nil, List.getD_cons_zero, List.getD_cons_succ]
  push_cast
  norm_num
  ring

theorem nfc_fc_v : nfc_fc.val ρ = Moonphase.nfc (Moonphase.newMpK (ρ 0)) Moonphase.fc := by
  simp only [nfc_fc, val_sumFrom, List.map, List.sum_cons, List.sum_nil, val_add, val_sub, val_mul, val_q, val_sin, E_v, M_v, M'_v, F_v, Ω_v]
  generalize Moonphase.newMpK (ρ 0) = m
  simp only [Moonphase.nfc, Moonphase.fc, series, List.map, List.sum_cons, List.sum_nil, List.getD_cons_zero, List.getD_cons_succ]
  push_cast
  norm_num
  ring

theorem flc_v : flc.val ρ = Moonphase.flc (Moonphase.newMpK (ρ 0)) := by
  simp only [flc, val_sumFrom, List.map, List.sum_cons, List.sum_nil, val_add, val_sub, val_mul, val_q, val_sin, E_v, M_v, M'_v, F_v, Ω_v]
  generalize Moonphase.newMpK (ρ 0) = m
  simp only [Moonphase.flc, series, List.map, List.sum_cons, List.sum_nil]
  push_cast
  norm_num
  ring

theorem w_v : w.val ρ = Moonphase.w (Moonphase.newMpK (ρ 0)) := by
  simp only [w, val_add, val_sub, val_mul, val_q, val_cos, E_v, M_v, M'_v, F_v]
  generalize Moonphase.newMpK (ρ 0) = m
  simp only [Moonphase.w]
  norm_num

theorem a_v : a.val ρ = Moonphase.a (Moonphase.newMpK (ρ 0)) := by
  simp only [a, val_sumFrom, List.map, List.sum_cons, List.sum_nil, A0, A1, A2, A3, A4, A5, A6, A7, A8, A9, A10, A11, A12, A13, val_add, val_sub, val_mul, val_q, val_p,
    val_sin, val_v, T_v]
  simp only [Moonphase.a, Moonphase.newMpK, Moonphase.ac, List.zip, List.zipWith, series, List.map, List.sum_cons, List.sum_nil, deg, Moonphase.ck]
  push_cast
  have hA : ∀ a b k : ℝ, a / 180 * π + b / 180 * π * k = a * (π / 180) + b * (π / 180) * k := fun _ _ _ => by ring
  norm_num
  ring_nf

end Moonphase64v


namespace Apsis64v

open Apsis64

variable (ρ : ℕ → ℝ)

theorem T_v : T.val ρ = (Apsis.newLaK (ρ 0)).T := by
  simp only [T, val_mul, val_q, val_v, Apsis.newLaK, Apsis.ck]; norm_num
theorem mean_v : mean.val ρ = Apsis.mean (Apsis.newLaK (ρ 0)).T := by
  simp only [mean, horner, val_add, val_mul, val_q, T_v, Apsis.mean, hornerR, List.foldr, Apsis.ck]; norm_num
theorem D_v : D.val ρ = (Apsis.newLaK (ρ 0)).D := by
  simp only [D, horner, val_add, val_mul, val_p, T_v]; simp only [Apsis.newLaK, hornerR, List.foldr, deg, Apsis.ck]; norm_num; ring
theorem M_v : M.val ρ = (Apsis.newLaK (ρ 0)).M := by
  simp only [M, horner, val_add, val_mul, val_p, T_v]; simp only [Apsis.newLaK, hornerR, List.foldr, deg, Apsis.ck]; norm_num; ring
theorem F_v : F.val ρ = (Apsis.newLaK (ρ 0)).F := by
  simp only [F, horner, val_add, val_mul, val_p, T_v]; simp only [Apsis.newLaK, hornerR, List.foldr, deg, Apsis.ck]; norm_num; ring

theorem pc_v : pc.val ρ = Apsis.pc (Apsis.newLaK (ρ 0)) := by
  simp only [pc, val_sumFrom, List.map, List.sum_cons, List.sum_nil, val_add, val_sub, val_mul, val_q, val_sin, T_v, D_v, M_v, F_v]
  generalize Apsis.newLaK (ρ 0) = m
  simp only [Apsis.pc, series, List.map, List.sum_cons, List.sum_nil]
  push_cast
  norm_num

theorem ac_v : ac.val ρ = Apsis.ac (Apsis.newLaK (ρ 0)) := by
  simp only [ac, val_sumFrom, List.map, List.sum_cons, List.sum_nil, val_add, val_sub, val_mul, val_q, val_sin, T_v, D_v, M_v, F_v]
  generalize Apsis.newLaK (ρ 0) = m
  simp only [Apsis.ac, series, List.map, List.sum_cons, List.sum_nil]
  push_cast
  norm_num

theorem ap_v : ap.val ρ = Apsis.ap (Apsis.newLaK (ρ 0)) := by
  simp only [ap, val_sumFrom, List.map, List.sum_cons, List.sum_nil, val_add, val_sub, val_mul, val_q, val_cos, T_v, D_v, M_v, F_v]
  generalize Apsis.newLaK (ρ 0) = m
  simp only [Apsis.ap, series, List.map, List.sum_cons, List.sum_nil]
  push_cast
  norm_num

theorem pp_v : pp.val ρ = Apsis.pp (Apsis.newLaK (ρ 0)) := by
  simp only [pp, val_sumFrom, List.map, List.sum_cons, List.sum_nil, val_add, val_sub, val_mul, val_q, val_cos, T_v, D_v, M_v, F_v]
  generalize Apsis.newLaK (ρ 0) = m
  simp only [Apsis.pp, series, List.map, List.sum_cons, List.sum_nil]
  push_cast
  norm_num

end Apsis64v

theorem node_v (ρ : ℕ → ℝ) : Moonnode64.node.val ρ = Moonnode.nodeK (ρ 0) := by
  have hT : Moonnode64.T.val ρ = ρ 0 * Moonnode.ck := by
    simp only [Moonnode64.T, val_mul, val_q, val_v, Moonnode.ck]; norm_num
  simp only [Moonnode.nodeK]
  generalize ρ 0 * Moonnode.ck = t at *
  have hD : Moonnode64.D.val ρ = hornerR t [183.638 * deg, 331.73735682 * deg / Moonnode.ck, 0.0014852 * deg, 0.00000209 * deg, -0.00000001 * deg] := by
    simp only [Moonnode64.D, horner, val_add, val_mul, val_p, hT, hornerR, List.foldr, deg, Moonnode.ck]; norm_num; ring
  have hM : Moonnode64.M.val ρ = hornerR t [17.4006 * deg, 26.8203725 * deg / Moonnode.ck, 0.0001186 * deg, 0.00000006 * deg] := by
    simp only [Moonnode64.M, horner, val_add, val_mul, val_p, hT, hornerR, List.foldr, deg, Moonnode.ck]; norm_num; ring
  have hM' : Moonnode64.M'.val ρ = hornerR t [38.3776 * deg, 355.52747313 * deg / Moonnode.ck, 0.0123499 * deg, 0.000014627 * deg, -0.000000069 * deg] := by
    simp only [Moonnode64.M', horner, val_add, val_mul, val_p, hT, hornerR, List.foldr, deg, Moonnode.ck]; norm_num; ring
  have hΩ : Moonnode64.Ω.val ρ = hornerR t [123.9767 * deg, -1.44098956 * deg / Moonnode.ck, 0.0020608 * deg, 0.00000214 * deg, -0.000000016 * deg] := by
    simp only [Moonnode64.Ω, horner, val_add, val_mul, val_p, hT, hornerR, List.foldr, deg, Moonnode.ck]; norm_num; ring
  have hV : Moonnode64.V.val ρ = hornerR t [299.75 * deg, 132.85 * deg, -0.009173 * deg] := by
    simp only [Moonnode64.V, horner, val_add, val_mul, val_p, hT, hornerR, List.foldr, deg]; norm_num; ring
  have hP : Moonnode64.P.val ρ = Moonnode64.Ω.val ρ + 272.75 * deg - 2.3 * deg * t := by
    simp only [Moonnode64.P, val_add, val_sub, val_mul, val_p, hT, deg]; norm_num; ring
  have hE : Moonnode64.E.val ρ = hornerR t [1, -0.002516, -0.0000074] := by
    simp only [Moonnode64.E, horner, val_add, val_mul, val_q, hT, hornerR, List.foldr]; norm_num
  rw [← hD, ← hM, ← hM', ← hΩ, ← hV, ← hE, ← hP]
  simp only [Moonnode64.node, horner, val_sumFrom, List.map, List.sum_cons, List.sum_nil, val_add, val_sub, val_mul, val_q, val_sin, hT]
  generalize Moonnode64.D.val ρ = D
  generalize Moonnode64.M.val ρ = M
  generalize Moonnode64.M'.val ρ = M'
  generalize Moonnode64.Ω.val ρ = Ω
  generalize Moonnode64.V.val ρ = V
  generalize Moonnode64.P.val ρ = P
  generalize Moonnode64.E.val ρ = E
  simp only [hornerR, List.foldr, series, List.map, List.sum_cons, List.sum_nil, Moonnode.ck]
  push_cast
  norm_num
  ring

/-! The claims. -/

/-- `out` is `f k` within δ, for a k = n + h which is as near (year − y0)·r as rounding allows: the nearest one unless the date is within 10⁻¹⁰ of the
middle between two. -/
def NearEvent (f : ℝ → ℝ) (y0 r h δ year out : ℝ) : Prop :=
  ∃ n : ℤ, |(year - y0) * r - (n + h)| ≤ 1 / 2 + 1e-10 ∧ |out - f (n + h)| ≤ δ ∧
    (1e-10 < |Int.fract ((year - y0) * r - h) - 1 / 2| → n = ⌊(year - y0) * r - h + 0.5⌋)

theorem near_event {l : Trig} (hl : l.Ok) {arg : Ex → Ex} (j : ℕ) (hj : j < 4) {year y0 r h δ : ℝ} (hh : h = (j : ℝ) / 4) (hy : |year| ≤ 6000) (m : ℕ) (hm : m ≤ 2 ^ 100)
    (hv : ∀ h : Ex, (arg h).val (fun _ => year) = (year - y0) * r - h.val (fun _ => year) + 0.5)
    (hb : within [(6000 * 2 ^ 64, 0)] (arg (q j 4)) m 34028236692093846346337460743 = true)
    {body : Ex} {out : ℝ} (hr : SnapRun l arg (q j 4) body year out) {f : ℝ → ℝ} (hf : ∀ ρ : ℕ → ℝ, body.val ρ = f (ρ 0)) (K : ℕ)
    (hK : |(year - y0) * r| + 1 ≤ K) (ε : ℕ) (hε : (ε : ℝ) / 2 ^ 128 ≤ δ)
    (hw : within [(K * 2 ^ 64, 0)] body (2 ^ 100) ε = true) : NearEvent f y0 r h δ year out := by
  subst hh
  obtain ⟨n, h1, h2, h3⟩ := snap64 hl hj hy m hm hv hb hr
  have hk : |(n : ℝ) + (j : ℝ) / 4| ≤ K := by
    have h1' : |(year - y0) * r - (n + (j : ℝ) / 4)| ≤ 1 := h1.trans (by norm_num)
    rw [abs_le] at h1' ⊢
    have := abs_le.mp (le_refl |(year - y0) * r|)
    constructor <;> linarith
  obtain ⟨_, b⟩ := within_bound hl (env_one hk) h2 hw
  rw [hf] at b
  exact ⟨n, h1, b.trans hε, h3⟩

theorem phase_val (year : ℝ) (h : Ex) : (snapPhase h).val (fun _ => year) = (year - 2000) * 12.3685 - h.val (fun _ => year) + 0.5 := by
  simp only [snapPhase, val_add, val_sub, val_mul, val_q, val_v]; norm_num
theorem apsis_val (year : ℝ) (h : Ex) : (snapApsis h).val (fun _ => year) = (year - 1999.97) * 13.2555 - h.val (fun _ => year) + 0.5 := by
  simp only [snapApsis, val_add, val_sub, val_mul, val_q, val_v]; norm_num
theorem nodes_val (year : ℝ) (h : Ex) : (snapNode h).val (fun _ => year) = (year - 2000.05) * 13.4223 - h.val (fun _ => year) + 0.5 := by
  simp only [snapNode, val_add, val_sub, val_mul, val_q, val_v]; norm_num

theorem new_v (ρ : ℕ → ℝ) : Moonphase64.New.val ρ = Moonphase.newK (ρ 0) := by
  simp only [Moonphase64.New, val_add, Moonphase64v.mean_v, Moonphase64v.nfc_nc_v, Moonphase64v.a_v]; rfl
theorem full_v (ρ : ℕ → ℝ) : Moonphase64.Full.val ρ = Moonphase.fullK (ρ 0) := by
  simp only [Moonphase64.Full, val_add, Moonphase64v.mean_v, Moonphase64v.nfc_fc_v, Moonphase64v.a_v]; rfl
theorem first_v (ρ : ℕ → ℝ) : Moonphase64.First.val ρ = Moonphase.firstK (ρ 0) := by
  simp only [Moonphase64.First, val_add, Moonphase64v.mean_v, Moonphase64v.flc_v, Moonphase64v.w_v, Moonphase64v.a_v]; rfl
theorem last_v (ρ : ℕ → ℝ) : Moonphase64.Last.val ρ = Moonphase.lastK (ρ 0) := by
  simp only [Moonphase64.Last, val_add, val_sub, Moonphase64v.mean_v, Moonphase64v.flc_v, Moonphase64v.w_v, Moonphase64v.a_v]; rfl
theorem meanPhase_v (ρ : ℕ → ℝ) : Moonphase64.mean.val ρ = Moonphase.mean (ρ 0 * Moonphase.ck) := by
  rw [Moonphase64v.mean_v]; rfl
theorem perigee_v (ρ : ℕ → ℝ) : Apsis64.Perigee.val ρ = Apsis.perigeeK (ρ 0) := by
  simp only [Apsis64.Perigee, val_add, Apsis64v.mean_v, Apsis64v.pc_v]; rfl
theorem apogee_v (ρ : ℕ → ℝ) : Apsis64.Apogee.val ρ = Apsis.apogeeK (ρ 0) := by
  simp only [Apsis64.Apogee, val_add, Apsis64v.mean_v, Apsis64v.ac_v]; rfl

theorem year_k {year y0 r : ℝ} (h : |year - 2000| ≤ 4000) (K : ℕ) (h0 : |2000 - y0| ≤ 0.05) (hr : 0 ≤ r) (hK : 4000.05 * r + 1 ≤ K) : |(year - y0) * r| + 1 ≤ K := by
  rw [abs_mul, abs_of_nonneg hr]
  have : |year - y0| ≤ 4000.05 := by
    have := abs_add_le (year - 2000) (2000 - y0)
    rw [sub_add_sub_cancel] at this
    norm_num at *
    linarith
  have := mul_le_mul_of_nonneg_right this hr
  linarith

theorem year_6000 {year : ℝ} (h : |year - 2000| ≤ 4000) : |year| ≤ 6000 := by
  rw [abs_le] at *
  constructor <;> linarith

/-- The phases of the Moon from −2000 to 6000: what the program returns is the value of the formulas for the lunation nearest the date, within 3·10⁻⁹ day. -/
theorem C183_phases (l : Trig) (hl : l.Ok) (year out : ℝ) (h : |year - 2000| ≤ 4000) :
    (SnapRun l snapPhase (q 0 4) Moonphase64.New year out → NearEvent Moonphase.newK 2000 12.3685 0 3e-9 year out) ∧
    (SnapRun l snapPhase (q 1 4) Moonphase64.First year out → NearEvent Moonphase.firstK 2000 12.3685 0.25 3e-9 year out) ∧
    (SnapRun l snapPhase (q 2 4) Moonphase64.Full year out → NearEvent Moonphase.fullK 2000 12.3685 0.5 3e-9 year out) ∧
    (SnapRun l snapPhase (q 3 4) Moonphase64.Last year out → NearEvent Moonphase.lastK 2000 12.3685 0.75 3e-9 year out) := by
  have hK := year_k h (y0 := 2000) (r := 12.3685) 49476 (by norm_num) (by norm_num) (by norm_num)
  have hm : 98950 * 2 ^ 64 ≤ 2 ^ 100 := by norm_num
  have hε : ((1020847100762815390390123822295 : ℕ) : ℝ) / 2 ^ 128 ≤ 3e-9 := by norm_num
  refine ⟨fun hr => ?_, fun hr => ?_, fun hr => ?_, fun hr => ?_⟩
  · exact near_event hl 0 (by norm_num) (by norm_num) (year_6000 h) _ hm (phase_val year) (by decide +kernel) hr new_v 49476 hK _ hε (by decide +kernel)
  · exact near_event hl 1 (by norm_num) (by norm_num) (year_6000 h) _ hm (phase_val year) (by decide +kernel) hr first_v 49476 hK _ hε (by decide +kernel)
  · exact near_event hl 2 (by norm_num) (by norm_num) (year_6000 h) _ hm (phase_val year) (by decide +kernel) hr full_v 49476 hK _ hε (by decide +kernel)
  · exact near_event hl 3 (by norm_num) (by norm_num) (year_6000 h) _ hm (phase_val year) (by decide +kernel) hr last_v 49476 hK _ hε (by decide +kernel)

/-- The mean phases, likewise within 2·10⁻⁹ day. -/
theorem C183_mean (l : Trig) (hl : l.Ok) (year out : ℝ) (h : |year - 2000| ≤ 4000) (j : ℕ) (hj : j < 4)
    (hr : SnapRun l snapPhase (q j 4) Moonphase64.mean year out) :
    NearEvent (fun k => Moonphase.mean (k * Moonphase.ck)) 2000 12.3685 (j / 4) 2e-9 year out := by
  have hK := year_k h (y0 := 2000) (r := 12.3685) 49476 (by norm_num) (by norm_num) (by norm_num)
  have hm : 98950 * 2 ^ 64 ≤ 2 ^ 100 := by norm_num
  have hε : ((680564733841876926926749214863 : ℕ) : ℝ) / 2 ^ 128 ≤ 2e-9 := by norm_num
  have hb : within [(6000 * 2 ^ 64, 0)] (snapPhase (q (j : ℕ) 4)) (98950 * 2 ^ 64) 34028236692093846346337460743 = true := by
    interval_cases j <;> decide +kernel
  exact near_event hl j hj rfl (year_6000 h) _ hm (phase_val year) hb hr meanPhase_v 49476 hK _ hε (by decide +kernel)

/-- Perigee and apogee within 5·10⁻⁹ day, the parallaxes in seconds of arc within 5·10⁻⁸. -/
theorem C183_apsides (l : Trig) (hl : l.Ok) (year out : ℝ) (h : |year - 2000| ≤ 4000) :
    (SnapRun l snapApsis (q 0 4) Apsis64.Perigee year out → NearEvent Apsis.perigeeK 1999.97 13.2555 0 5e-9 year out) ∧
    (SnapRun l snapApsis (q 2 4) Apsis64.Apogee year out → NearEvent Apsis.apogeeK 1999.97 13.2555 0.5 5e-9 year out) ∧
    (SnapRun l snapApsis (q 0 4) Apsis64.pp year out → NearEvent (fun k => Apsis.pp (Apsis.newLaK k)) 1999.97 13.2555 0 5e-8 year out) ∧
    (SnapRun l snapApsis (q 2 4) Apsis64.ap year out → NearEvent (fun k => Apsis.ap (Apsis.newLaK k)) 1999.97 13.2555 0.5 5e-8 year out) := by
  have hK := year_k h (y0 := 1999.97) (r := 13.2555) 53024 (by norm_num) (by norm_num) (by norm_num)
  have hm : 107400 * 2 ^ 64 ≤ 2 ^ 100 := by norm_num
  have hε : ((1701411834604692317316873037158 : ℕ) : ℝ) / 2 ^ 128 ≤ 5e-9 := by norm_num
  have hε' : ((17014118346046923173168730371588 : ℕ) : ℝ) / 2 ^ 128 ≤ 5e-8 := by norm_num
  refine ⟨fun hr => ?_, fun hr => ?_, fun hr => ?_, fun hr => ?_⟩
  · exact near_event hl 0 (by norm_num) (by norm_num) (year_6000 h) _ hm (apsis_val year) (by decide +kernel) hr perigee_v 53024 hK _ hε (by decide +kernel)
  · exact near_event hl 2 (by norm_num) (by norm_num) (year_6000 h) _ hm (apsis_val year) (by decide +kernel) hr apogee_v 53024 hK _ hε (by decide +kernel)
  · exact near_event hl 0 (by norm_num) (by norm_num) (year_6000 h) _ hm (apsis_val year) (by decide +kernel) hr Apsis64v.pp_v 53024 hK _ hε' (by decide +kernel)
  · exact near_event hl 2 (by norm_num) (by norm_num) (year_6000 h) _ hm (apsis_val year) (by decide +kernel) hr Apsis64v.ap_v 53024 hK _ hε' (by decide +kernel)

/-- The passages through the nodes within 1.2·10⁻⁸ day. -/
theorem C183_nodes (l : Trig) (hl : l.Ok) (year out : ℝ) (h : |year - 2000| ≤ 4000) :
    (SnapRun l snapNode (q 0 4) Moonnode64.node year out → NearEvent Moonnode.nodeK 2000.05 13.4223 0 1.2e-8 year out) ∧
    (SnapRun l snapNode (q 2 4) Moonnode64.node year out → NearEvent Moonnode.nodeK 2000.05 13.4223 0.5 1.2e-8 year out) := by
  have hK := year_k h (y0 := 2000.05) (r := 13.4223) 53692 (by rw [abs_le]; norm_num) (by norm_num) (by norm_num)
  have hm : 107400 * 2 ^ 64 ≤ 2 ^ 100 := by norm_num
  have hε : ((4083388403051261561560495289181 : ℕ) : ℝ) / 2 ^ 128 ≤ 1.2e-8 := by norm_num
  refine ⟨fun hr => ?_, fun hr => ?_⟩
  · exact near_event hl 0 (by norm_num) (by norm_num) (year_6000 h) _ hm (nodes_val year) (by decide +kernel) hr node_v 53692 hK _ hε (by decide +kernel)
  · exact near_event hl 2 (by norm_num) (by norm_num) (year_6000 h) _ hm (nodes_val year) (by decide +kernel) hr node_v 53692 hK _ hε (by decide +kernel)

/-- A function as assumed exists, the program has a result in the year 2000.1, and the date is not near the middle between two new moons: the result is
`New 2000.1` within 3·10⁻⁹ day. -/
theorem C183_example : ∃ l : Trig, l.Ok ∧ ∃ out, SnapRun l snapPhase (q 0 4) Moonphase64.New 2000.1 out ∧ |out - Moonphase.New 2000.1| ≤ 3e-9 := by
  refine ⟨_, trig_ok, ?_⟩
  generalize hl : (⟨fun x => fl (Real.sin x), fun x => fl (Real.cos x)⟩ : Trig) = l
  have ok : l.Ok := hl ▸ trig_ok
  obtain ⟨x, hx⟩ := run_exists l (fun _ => (2000.1 : ℝ)) (snapPhase (q 0 4))
  obtain ⟨z, hz⟩ := run_exists l (fun _ => (2000.1 : ℝ)) (q 0 4)
  obtain ⟨out, ho⟩ := run_exists l (fun _ => fl (⌊x⌋ + z)) Moonphase64.New
  have hr : SnapRun l snapPhase (q 0 4) Moonphase64.New 2000.1 out := ⟨x, z, hx, hz, ho⟩
  obtain ⟨n, _, h2, h3⟩ := (C183_phases l ok 2000.1 out (by norm_num [abs_le])).1 hr
  refine ⟨out, hr, ?_⟩
  have hf : Int.fract (((2000.1 : ℝ) - 2000) * 12.3685 - 0) = 0.23685 := by
    rw [Int.fract_eq_iff]
    refine ⟨by norm_num, by norm_num, 1, by norm_num⟩
  have hn := h3 (by rw [hf]; norm_num [abs_of_neg])
  rw [hn] at h2
  exact h2

end Verif.Props
