import Mathlib.Tactic
import Verif.Lemmas.Series
import Verif.Model.Elements64
import Verif.Props.Solar64
/-!
Property C201: mean elements of the orbits of the planets in double precision.
-/
namespace Verif.Props.Elements64v

open Verif.Go.F64 Verif.Go.F64.Ex Verif.Model Verif.Model.Elements64 Verif.Props.Solar64v
open scoped Real

/-- Coefficients as numbers. -/
noncomputable def num (k : List ℤ) : List ℝ := List.map (fun n : ℤ => (n : ℝ) / 100000000000) k

noncomputable def conv (k : C6) : PlanetElements.C6 := ⟨num k.L, num k.a, num k.e, num k.i, num k.Ω, num k.ϖ⟩

theorem conv_v : cMean.map conv = PlanetElements.cMean := by
  simp only [cMean, PlanetElements.cMean, List.map, conv, num]
  norm_num

theorem val_horner_ex (ρ : ℕ → ℝ) (x : Ex) : ∀ k : List Ex, (horner x k).val ρ = hornerR (x.val ρ) (k.map (Ex.val ρ))
  | [] => by simp [horner, hornerR, val_q]
  | [a] => by simp [horner, hornerR]
  | a :: b :: k => by
    have := val_horner_ex ρ x (b :: k)
    simp only [horner, val_add, val_mul, this, hornerR, List.map_cons, List.foldr_cons]

theorem poly_v (k : List ℤ) (jde : ℝ) : (poly k).val (fun _ => jde - 2451545) = hornerR (J2000Century jde) (num k) := by
  unfold poly
  rw [val_horner_ex, List.map_map]
  congr 1
  simp only [val_div, val_v, val_q, J2000Century]; norm_num

/-- What the analyser finds for a planet. -/
def ok (k : C6) : Bool :=
  within dateEnv (poly k.L) (5979216 * 2 ^ 64) 1361129467683753853853498429727 && within dateEnv (poly k.a) (31 * 2 ^ 64) 2381976568446569244243622 && within dateEnv (poly k.e) (1 * 2 ^ 64) 17014118346046923173168 &&
  within dateEnv (poly k.i) (420 * 2 ^ 64) 42535295865117307932921825 && within dateEnv (poly k.Ω) (420 * 2 ^ 64) 42535295865117307932921825 && within dateEnv (poly k.ϖ) (420 * 2 ^ 64) 42535295865117307932921825

theorem ok_all : cMean.all ok = true := by decide +kernel

theorem hor {l : Trig} (hl : l.Ok) {jde : ℝ} (h : |jde - 2451545| ≤ 1461000) {k : List ℤ} {x : Option ℝ} {m ε : ℕ} (hw : within dateEnv (poly k) (m * 2 ^ 64) ε = true)
    (hx : Elements64.Horner l jde k x) :
    (x = none ∧ Model.Horner (J2000Century jde) (num k) = none) ∨
    ∃ y Y, x = some y ∧ Model.Horner (J2000Century jde) (num k) = some Y ∧ |y - Y| ≤ (ε : ℝ) / 2 ^ 128 ∧ |Y| ≤ m := by
  unfold Elements64.Horner at hx
  split at hx
  · next hk => subst hk; exact Or.inl ⟨hx, rfl⟩
  · next hk =>
    obtain ⟨y, hr, rfl⟩ := hx
    obtain ⟨b1, b2⟩ := within_bound hl (date_env h) hr hw
    rw [poly_v] at b1 b2
    refine Or.inr ⟨y, _, rfl, Verif.Lemmas.Horner_hornerR _ _ (by unfold num; simpa using hk), b2, b1.trans (le_of_eq ?_)⟩
    rw [Nat.cast_mul]
    push_cast
    rw [mul_div_assoc, show (18446744073709551616 : ℝ) / 2 ^ 64 = 1 by norm_num, mul_one]

theorem ang {fd : ℝ → ℝ} (hd : DegOk fd) {y Y : ℝ} (h : |y - Y| ≤ ((42535295865117307932921825 : ℕ) : ℝ) / 2 ^ 128) (hY : |Y| ≤ (420 : ℕ)) :
    |fd y - PlanetElements.angleFromDeg Y| ≤ 6e-15 := by
  have := (fd_near hd (m := 420) (e := 126 / 1000000000000000) (by exact_mod_cast hY) (h.trans (by norm_num)) (by norm_num)).1
  exact this.trans (by norm_num)

end Verif.Props.Elements64v

namespace Verif.Props

open Verif.Go Verif.Go.F64 Verif.Go.F64.Ex Verif.Model Elements64v Solar64v
open scoped Real

/-- C201: for dates within 4000 years of 2000 Mean in double precision panics exactly when it does in exact arithmetic; otherwise the longitude is right to
1.4·10⁻¹⁰ radians up to turns, the axis to 7·10⁻¹⁵ AU, the eccentricity to 5·10⁻¹⁷ and the other angles to 6·10⁻¹⁵ radians. -/
theorem C201_mean {l : Trig} (hl : l.Ok) {fd red : ℝ → ℝ} (hd : DegOk fd) (hm : ∀ x, |x| ≤ 2 ^ 17 → ∃ k : ℤ, |red x - x - k * (2 * π)| ≤ 1e-11) {p : ℕ} {jde : ℝ}
    (h : |jde - 2451545| ≤ 1461000) {out : Option PlanetElements.Elements} (ho : Elements64.Mean l fd red p jde out) :
    (out = none ↔ PlanetElements.Mean p jde = none) ∧
    ∀ E E', out = some E → PlanetElements.Mean p jde = some E' →
      (∃ k : ℤ, |E.Lon - E'.Lon - k * (2 * π)| ≤ 1.4e-10) ∧ |E.Axis - E'.Axis| ≤ 7e-15 ∧ |E.Ecc - E'.Ecc| ≤ 5e-17 ∧
      |E.Inc - E'.Inc| ≤ 6e-15 ∧ |E.Node - E'.Node| ≤ 6e-15 ∧ |E.Peri - E'.Peri| ≤ 6e-15 := by
  unfold Elements64.Mean at ho
  unfold PlanetElements.Mean
  rw [← conv_v, List.getElem?_map]
  have hall := ok_all
  rw [List.all_eq_true] at hall
  cases hk : Elements64.cMean[p]? with
  | none =>
    rw [hk] at ho
    simp only at ho
    subst ho
    simp
  | some k =>
    rw [hk] at ho
    simp only at ho
    have hok := hall k (List.mem_of_getElem? hk)
    unfold ok at hok
    simp only [Bool.and_eq_true] at hok
    obtain ⟨⟨⟨⟨⟨w1, w2⟩, w3⟩, w4⟩, w5⟩, w6⟩ := hok
    obtain ⟨L, a, e, i, Ω, ϖ, h1, h2, h3, h4, h5, h6, rfl⟩ := ho
    rcases hor hl h w1 h1 with ⟨rfl, g1⟩ | ⟨L, L', rfl, g1, p1, q1⟩
    · simp [conv, g1]
    rcases hor hl h w2 h2 with ⟨rfl, g2⟩ | ⟨a, a', rfl, g2, p2, q2⟩
    · simp [conv, g1, g2]
    rcases hor hl h w3 h3 with ⟨rfl, g3⟩ | ⟨e, e', rfl, g3, p3, q3⟩
    · simp [conv, g1, g2, g3]
    rcases hor hl h w4 h4 with ⟨rfl, g4⟩ | ⟨i, i', rfl, g4, p4, q4⟩
    · simp [conv, g1, g2, g3, g4]
    rcases hor hl h w5 h5 with ⟨rfl, g5⟩ | ⟨Ω, Ω', rfl, g5, p5, q5⟩
    · simp [conv, g1, g2, g3, g4, g5]
    rcases hor hl h w6 h6 with ⟨rfl, g6⟩ | ⟨ϖ, ϖ', rfl, g6, p6, q6⟩
    · simp [conv, g1, g2, g3, g4, g5, g6]
    simp only [conv, Option.map_some, Option.bind_eq_bind, Option.bind_some, g1, g2, g3, g4, g5, g6, Option.pure_def, reduceCtorEq, Option.some.injEq, true_and]
    rintro E E' rfl rfl
    refine ⟨?_, p2.trans (by norm_num), p3.trans (by norm_num), ang hd p4 q4, ang hd p5 q5, ang hd p6 q6⟩
    obtain ⟨u1, u2⟩ := fd_near hd (m := 5979216) (e := 4 / 1000000000) (by exact_mod_cast q1) (p1.trans (by norm_num)) (by norm_num)
    obtain ⟨k1, hk1⟩ := hm (fd L) (by
      have := abs_sub_abs_le_abs_sub (fd L) (L' * deg)
      generalize |L' * deg| = z at *
      generalize |fd L - L' * deg| = z1 at *
      norm_num at u1 u2 ⊢
      linarith)
    obtain ⟨k2, hk2⟩ := mod1_turn (L' * deg)
    refine ⟨k1 - k2, ?_⟩
    show |red (fd L) - mod1 (PlanetElements.angleFromDeg L') - ((k1 - k2 : ℤ) : ℝ) * (2 * π)| ≤ 1.4e-10
    unfold PlanetElements.angleFromDeg
    rw [hk2]
    push_cast
    rw [show red (fd L) - (L' * deg + k2 * (2 * π)) - (k1 - k2) * (2 * π) = (red (fd L) - fd L - k1 * (2 * π)) + (fd L - L' * deg) by ring]
    refine (abs_add_le _ _).trans ?_
    norm_num at u1 hk1 ⊢
    linarith

/-- C201: Inc and Node agree with the fields of Mean in double precision as well. -/
theorem C201_inc_node {l : Trig} (hl : l.Ok) {fd : ℝ → ℝ} (hd : DegOk fd) {p : ℕ} {jde : ℝ} (h : |jde - 2451545| ≤ 1461000) :
    (∀ out, Elements64.Inc l fd p jde out → (out = none ↔ PlanetElements.Inc p jde = none) ∧ ∀ a b, out = some a → PlanetElements.Inc p jde = some b → |a - b| ≤ 6e-15) ∧
    ∀ out, Elements64.Node l fd p jde out → (out = none ↔ PlanetElements.Node p jde = none) ∧ ∀ a b, out = some a → PlanetElements.Node p jde = some b → |a - b| ≤ 6e-15 := by
  unfold Elements64.Inc Elements64.Node PlanetElements.Inc PlanetElements.Node
  rw [← conv_v, List.getElem?_map]
  have hall := ok_all
  rw [List.all_eq_true] at hall
  cases hk : Elements64.cMean[p]? with
  | none => simp
  | some k =>
    have hok := hall k (List.mem_of_getElem? hk)
    unfold ok at hok
    simp only [Bool.and_eq_true] at hok
    obtain ⟨⟨⟨⟨⟨w1, w2⟩, w3⟩, w4⟩, w5⟩, w6⟩ := hok
    simp only
    constructor
    · rintro out ⟨x, h1, rfl⟩
      rcases hor hl h w4 h1 with ⟨rfl, g⟩ | ⟨L, L', rfl, g, p1, q1⟩
      · simp [conv, g]
      · simp only [conv, Option.map_some, Option.bind_eq_bind, Option.bind_some, g, Option.pure_def, reduceCtorEq, Option.some.injEq, true_and]
        rintro a b rfl rfl
        exact ang hd p1 q1
    · rintro out ⟨x, h1, rfl⟩
      rcases hor hl h w5 h1 with ⟨rfl, g⟩ | ⟨L, L', rfl, g, p1, q1⟩
      · simp [conv, g]
      · simp only [conv, Option.map_some, Option.bind_eq_bind, Option.bind_some, g, Option.pure_def, reduceCtorEq, Option.some.injEq, true_and]
        rintro a b rfl rfl
        exact ang hd p1 q1

/-- C201: at J2000 Mean gives elements for Mercury, and the inclination is within 10⁻¹⁴ of 7.004986°. -/
theorem C201_example (l : Trig) (hl : l.Ok) : (∀ x, |x| ≤ 2 ^ 17 → ∃ k : ℤ, |mod1 x - x - k * (2 * π)| ≤ 1e-11) ∧ (∃ E, Elements64.Mean l (fun x => x * deg) mod1 0 2451545 (some E)) ∧
    ∃ a, Elements64.Inc l (fun x => x * deg) 0 2451545 (some a) ∧ |a - 7.004986 * deg| ≤ 1e-14 := by
  have hd : DegOk fun x => x * deg := fun x => by rw [sub_self, abs_zero]; positivity
  have ex : ∀ k : List ℤ, k ≠ [] → ∃ x, Elements64.Horner l 2451545 k (some x) := by
    intro k hk
    obtain ⟨x, hx⟩ := run_exists l (fun _ => fl (2451545 - 2451545)) (Elements64.poly k)
    exact ⟨x, by unfold Elements64.Horner; rw [if_neg hk]; exact ⟨x, hx, rfl⟩⟩
  refine ⟨fun x _ => ?_, ?_, ?_⟩
  · obtain ⟨k, hk⟩ := mod1_turn x
    exact ⟨k, by rw [hk, show x + k * (2 * π) - x - k * (2 * π) = 0 by ring, abs_zero]; norm_num⟩
  · unfold Elements64.Mean
    simp only [Elements64.cMean, List.getElem?_cons_zero]
    obtain ⟨L, h1⟩ := ex _ (by decide : ([25225090600000, 14947407224910000, 30350000, 1800] : List ℤ) ≠ [])
    obtain ⟨a, h2⟩ := ex _ (by decide : ([38709831000] : List ℤ) ≠ [])
    obtain ⟨e, h3⟩ := ex _ (by decide : ([20563175000, 2040700, -2830, -18] : List ℤ) ≠ [])
    obtain ⟨i, h4⟩ := ex _ (by decide : ([700498600000, 182150000, -1810000, 5600] : List ℤ) ≠ [])
    obtain ⟨Ω, h5⟩ := ex _ (by decide : ([4833089300000, 118618830000, 17542000, 21500] : List ℤ) ≠ [])
    obtain ⟨ϖ, h6⟩ := ex _ (by decide : ([7745611900000, 155647760000, 29544000, 900] : List ℤ) ≠ [])
    exact ⟨_, _, _, _, _, _, _, h1, h2, h3, h4, h5, h6, rfl⟩
  · obtain ⟨i, h4⟩ := ex _ (by decide : ([700498600000, 182150000, -1810000, 5600] : List ℤ) ≠ [])
    have hi : Elements64.Inc l (fun x => x * deg) 0 2451545 (some (i * deg)) := by
      unfold Elements64.Inc
      simp only [Elements64.cMean, List.getElem?_cons_zero]
      exact ⟨_, h4, rfl⟩
    refine ⟨_, hi, ?_⟩
    have := ((C201_inc_node hl hd (p := 0) (jde := 2451545) (by norm_num)).1 _ hi).2 _ (7.004986 * deg) rfl (by
      unfold PlanetElements.Inc
      simp [PlanetElements.cMean, Model.Horner, J2000Century, PlanetElements.angleFromDeg])
    exact this.trans (by norm_num)

end Verif.Props
