import Verif.Model.Solar64
import Verif.Model.Solar
import Verif.Props.Position64
/-
C195: the Sun and Pluto in double precision, against the same formulas in exact arithmetic.
-/
namespace Verif.Props

open Real Verif.Go Verif.Model Verif.Go.F64 Verif.Go.F64.Ex

/-- What is assumed of unit.AngleFromDeg: a few roundings. -/
def DegOk (fd : ℝ → ℝ) : Prop := ∀ x, |fd x - x * deg| ≤ 5e-16 * |x * deg| + 1e-30

/-- What is assumed of Angle.Mod1 for many turns. -/
def ModOk (red : ℝ → ℝ) : Prop := ∀ x, |x| ≤ 2 ^ 15 → |red x| ≤ 7 ∧ ∃ k : ℤ, |red x - x - k * (2 * π)| ≤ 2e-12

namespace Solar64v

open Solar64

theorem deg_b : 0 < deg ∧ deg ≤ 1746 / 100000 := by
  have h := pi_lt_d4
  norm_num at h
  unfold deg
  exact ⟨by positivity, by linarith⟩

/-- An angle converted from degrees: its error in radians. -/
theorem fd_near {fd : ℝ → ℝ} (hd : DegOk fd) {x X m e : ℝ} (hX : |X| ≤ m) (hx : |x - X| ≤ e) (he : e ≤ 1) :
    |fd x - X * deg| ≤ e * (1746 / 100000) + 1 / 2000000000000000 * ((m + 1) * (1746 / 100000)) + 1e-30 ∧ |X * deg| ≤ m * (1746 / 100000) := by
  obtain ⟨d0, d1⟩ := deg_b
  have e0 : 0 ≤ e := (abs_nonneg _).trans hx
  have hxm : |x| ≤ m + 1 := by
    have := abs_sub_abs_le_abs_sub x X
    linarith
  have m1 : |x * deg| ≤ (m + 1) * (1746 / 100000) := by
    rw [abs_mul, abs_of_pos d0]
    exact mul_le_mul hxm d1 d0.le ((abs_nonneg _).trans hxm)
  have m2 : |X * deg| ≤ m * (1746 / 100000) := by
    rw [abs_mul, abs_of_pos d0]
    exact mul_le_mul hX d1 d0.le ((abs_nonneg _).trans hX)
  refine ⟨?_, m2⟩
  have h1 := hd x
  have h2 : |x * deg - X * deg| ≤ e * (1746 / 100000) := by
    rw [← sub_mul, abs_mul, abs_of_pos d0]
    exact mul_le_mul hx d1 d0.le e0
  have h3 := abs_sub_le (fd x) (x * deg) (X * deg)
  generalize |x * deg| = w at *
  norm_num at h1 ⊢
  linarith

theorem Md_v (T : ℝ) : Md.val (fun _ => T) = hornerR T [357.52911, 35999.05029, -0.0001537] := by
  simp only [Md, horner, val_add, val_mul, val_q, val_v, hornerR, List.foldr]; norm_num
theorem Ld_v (T : ℝ) : Ld.val (fun _ => T) = hornerR T [280.46646, 36000.76983, 0.0003032] := by
  simp only [Ld, horner, val_add, val_mul, val_q, val_v, hornerR, List.foldr]; norm_num
theorem ecc_v (T : ℝ) : ecc.val (fun _ => T) = Solar.Eccentricity T := by
  simp only [ecc, horner, val_add, val_mul, val_q, val_v, Solar.Eccentricity, hornerR, List.foldr]; norm_num
theorem Ωd_v (T : ℝ) : Ωd.val (fun _ => T) * deg = Solar.node T := by
  simp only [Ωd, val_sub, val_mul, val_q, val_v, Solar.node]; norm_num
theorem Cd_v (T : ℝ) : Cd.val (at4 T (Solar.MeanAnomaly T) 0 0) * deg = Solar.center T := by
  simp only [Cd, horner, val_add, val_sub, val_mul, val_q, val_v, val_sin, Solar.center, at4, hornerR, List.foldr]; norm_num

/-- An environment of two variables. -/
theorem env2 {a b a' b' : ℝ} {p q : ℕ × ℕ} (ha : Fits a a' p) (hb : Fits b b' q) :
    ∀ i r, [p, q][i]? = some r → Fits (at4 a b 0 0 i) (at4 a' b' 0 0 i) r := by
  intro i r hr
  rcases i with _ | _ | i <;> simp at hr
  · subst hr; exact ha
  · subst hr; exact hb

theorem env4s {a b c d a' b' c' d' : ℝ} {p q r s : ℕ × ℕ} (ha : Fits a a' p) (hb : Fits b b' q) (hc : Fits c c' r) (hd : Fits d d' s) :
    ∀ i t, [p, q, r, s][i]? = some t → Fits (at4 a b c d i) (at4 a' b' c' d' i) t := by
  intro i t ht
  rcases i with _ | _ | _ | _ | i <;> simp at ht
  · subst ht; exact ha
  · subst ht; exact hb
  · subst ht; exact hc
  · subst ht; exact hd

theorem anomaly {l : Trig} (hl : l.Ok) {fd : ℝ → ℝ} (hd : DegOk fd) {T M : ℝ} (hT : |T| ≤ 40) (h : MeanAnomaly l fd T M) :
    |M - Solar.MeanAnomaly T| ≤ 25 / 1000000000000 ∧ |Solar.MeanAnomaly T| ≤ 25200 := by
  obtain ⟨d, hr, rfl⟩ := h
  obtain ⟨b1, b2⟩ := within_bound hl (env_one (m := 40) (by exact_mod_cast hT)) hr (m := 1440320 * 2 ^ 64) (ε := 224586362167819385885827240904) (by decide +kernel)
  rw [Md_v] at b1 b2
  obtain ⟨c1, c2⟩ := fd_near hd (m := 1440320) (e := 66 / 100000000000) (by norm_num at b1 ⊢; exact b1) (b2.trans (by norm_num)) (by norm_num)
  exact ⟨c1.trans (by norm_num), c2.trans (by norm_num)⟩

theorem meanLon {l : Trig} (hl : l.Ok) {fd : ℝ → ℝ} (hd : DegOk fd) {T d : ℝ} (hT : |T| ≤ 40) (hr : Run l (fun _ => T) Ld d) :
    |fd d - Solar.meanLon T| ≤ 25 / 1000000000000 ∧ |Solar.meanLon T| ≤ 25200 := by
  obtain ⟨b1, b2⟩ := within_bound hl (env_one (m := 40) (by exact_mod_cast hT)) hr (m := 1440320 * 2 ^ 64) (ε := 224586362167819385885827240904) (by decide +kernel)
  rw [Ld_v] at b1 b2
  obtain ⟨c1, c2⟩ := fd_near hd (m := 1440320) (e := 66 / 100000000000) (by norm_num at b1 ⊢; exact b1) (b2.trans (by norm_num)) (by norm_num)
  exact ⟨c1.trans (by norm_num), c2.trans (by norm_num)⟩

theorem centre {l : Trig} (hl : l.Ok) {fd : ℝ → ℝ} (hd : DegOk fd) {T M c : ℝ} (hT : |T| ≤ 40) (h : MeanAnomaly l fd T M) (hr : Run l (at4 T M 0 0) Cd c) :
    |fd c - Solar.center T| ≤ 1 / 1000000000000 ∧ |Solar.center T| ≤ 1 := by
  obtain ⟨e1, e2⟩ := anomaly hl hd hT h
  have f0 : Fits T T (40 * 2 ^ 64, 0) := ⟨by norm_num; exact hT, by simp⟩
  have f1 : Fits (Solar.MeanAnomaly T) M (25200 * 2 ^ 64, 8507059173023461586584365186) := ⟨by norm_num; exact e2, e1.trans (by norm_num)⟩
  obtain ⟨b1, b2⟩ := within_bound hl (env2 f0 f1) hr (m := 22 * 2 ^ 64 / 10) (ε := 19055812547572553953948978016) (by decide +kernel)
  obtain ⟨c1, c2⟩ := fd_near hd (m := 3) (e := 56 / 1000000000000) (by norm_num at b1; linarith) (b2.trans (by norm_num)) (by norm_num)
  rw [Cd_v] at c1 c2
  exact ⟨c1.trans (by norm_num), c2.trans (by norm_num)⟩

/-- A rounded sum reduced to one turn. -/
theorem red_sum {red : ℝ → ℝ} (hm : ModOk red) {x X y Y : ℝ} (hx : |x - X| ≤ 25 / 1000000000000) (hX : |X| ≤ 25200) (hy : |y - Y| ≤ 1 / 1000000000000) (hY : |Y| ≤ 1) :
    |red (fl (x + y))| ≤ 7 ∧ ∃ k : ℤ, |red (fl (x + y)) - (X + Y) - k * (2 * π)| ≤ 32 / 1000000000000 := by
  have b0 : |x + y| ≤ 25202 := by
    have h1 := abs_sub_abs_le_abs_sub x X
    have h2 := abs_sub_abs_le_abs_sub y Y
    have := abs_add_le x y
    linarith
  have b1 : |fl (x + y) - (x + y)| ≤ 3 / 1000000000000 := by
    refine (fl_err _).trans ?_
    have : |x + y| / 2 ^ 53 ≤ 25202 / 2 ^ 53 := by gcongr
    refine (add_le_add_left this _).trans (by norm_num)
  obtain ⟨m1, k, m2⟩ := hm (fl (x + y)) (by
    have := abs_sub_abs_le_abs_sub (fl (x + y)) (x + y)
    norm_num
    linarith)
  refine ⟨m1, k, ?_⟩
  norm_num at m2
  have e : red (fl (x + y)) - (X + Y) - k * (2 * π) = (red (fl (x + y)) - fl (x + y) - k * (2 * π)) + (fl (x + y) - (x + y)) + (x - X) + (y - Y) := by ring
  rw [e]
  have t1 := abs_add_le ((red (fl (x + y)) - fl (x + y) - k * (2 * π)) + (fl (x + y) - (x + y)) + (x - X)) (y - Y)
  have t2 := abs_add_le ((red (fl (x + y)) - fl (x + y) - k * (2 * π)) + (fl (x + y) - (x + y))) (x - X)
  have t3 := abs_add_le (red (fl (x + y)) - fl (x + y) - k * (2 * π)) (fl (x + y) - (x + y))
  linarith

theorem mod1_turn (x : ℝ) : ∃ k : ℤ, mod1 x = x + k * (2 * π) := by
  refine ⟨-⌊x / (2 * π)⌋, ?_⟩
  unfold mod1 pmod
  push_cast
  ring

theorem sun {l : Trig} (hl : l.Ok) {fd red : ℝ → ℝ} (hd : DegOk fd) (hm : ModOk red) {T s ν : ℝ} (hT : |T| ≤ 40) (h : TrueLon l fd red T s ν) :
    |s| ≤ 7 ∧ |ν| ≤ 7 ∧ (∃ k : ℤ, |s - (Solar.TrueLon T).1 - k * (2 * π)| ≤ 32 / 1000000000000) ∧
      ∃ k : ℤ, |ν - (Solar.TrueLon T).2 - k * (2 * π)| ≤ 32 / 1000000000000 := by
  obtain ⟨d, M, c, r1, r2, r3, rfl, rfl⟩ := h
  obtain ⟨a1, a2⟩ := meanLon hl hd hT r1
  obtain ⟨b1, b2⟩ := anomaly hl hd hT r2
  obtain ⟨c1, c2⟩ := centre hl hd hT r2 r3
  obtain ⟨p1, k1, p2⟩ := red_sum hm a1 a2 c1 c2
  obtain ⟨q1, k2, q2⟩ := red_sum hm b1 b2 c1 c2
  obtain ⟨j1, w1⟩ := mod1_turn (Solar.meanLon T + Solar.center T)
  obtain ⟨j2, w2⟩ := mod1_turn (Solar.MeanAnomaly T + Solar.center T)
  refine ⟨p1, q1, ⟨k1 - j1, ?_⟩, ⟨k2 - j2, ?_⟩⟩
  · unfold Solar.TrueLon
    rw [w1]
    convert p2 using 2
    push_cast; ring
  · unfold Solar.TrueLon
    rw [w2]
    convert q2 using 2
    push_cast; ring

/-- A quotient rounded. -/
theorem quot {a b A B : ℝ} (ha : |a - A| ≤ 1 / 1000000000000000) (hb : |b - B| ≤ 8 / 10000000000000) (hA : |A| ≤ 11 / 10) (hB : 9 / 10 ≤ B) :
    |fl (a / b) - A / B| ≤ 12 / 10000000000000 := by
  obtain ⟨b1, b2⟩ := abs_le.mp hb
  have B0 : 0 < B := by linarith
  have b0 : 0 < b := by linarith
  have e : a / b - A / B = ((a - A) - A / B * (b - B)) / b := by field_simp; ring
  have q0 : |A / B| ≤ 123 / 100 := by
    rw [abs_div, abs_of_pos B0, div_le_iff₀ B0]; linarith
  have q1 : |(a - A) - A / B * (b - B)| ≤ 1 / 1000000000000000 + 123 / 100 * (8 / 10000000000000) := by
    refine (abs_sub _ _).trans (add_le_add ha ?_)
    rw [abs_mul]
    exact mul_le_mul q0 hb (abs_nonneg _) (by norm_num)
  have q2 : |a / b - A / B| ≤ 1112 / 1000000000000000 := by
    rw [e, abs_div, abs_of_pos b0, div_le_iff₀ b0]
    linarith
  have q3 : |a / b| ≤ 2 := by
    have := abs_sub_abs_le_abs_sub (a / b) (A / B)
    linarith
  have q4 : |fl (a / b) - a / b| ≤ 1 / 1000000000000000 := by
    refine (fl_err _).trans ?_
    have : |a / b| / 2 ^ 53 ≤ 2 / 2 ^ 53 := by gcongr
    refine (add_le_add_left this _).trans (by norm_num)
  have := abs_sub_le (fl (a / b)) (a / b) (A / B)
  linarith

theorem cos_turn (x : ℝ) (k : ℤ) : Real.cos (x + k * (2 * π)) = Real.cos x := Real.cos_add_int_mul_two_pi x k

end Solar64v

open Solar64 Solar64v

/-- Within forty centuries of J2000 the true longitude and anomaly of the Sun are right to 3.2·10⁻¹¹ radian, whole turns apart, and the distance to 1.2·10⁻¹² AU. -/
theorem C195_sun {l : Trig} (hl : l.Ok) {fd red : ℝ → ℝ} (hd : DegOk fd) (hm : ModOk red) {T s ν R : ℝ} (hT : |T| ≤ 40) :
    (Solar64.TrueLon l fd red T s ν → (∃ k : ℤ, |s - (Solar.TrueLon T).1 - k * (2 * π)| ≤ 3.2e-11) ∧ ∃ k : ℤ, |ν - (Solar.TrueLon T).2 - k * (2 * π)| ≤ 3.2e-11) ∧
      (Solar64.Radius l fd red T R → |R - Solar.Radius T| ≤ 1.2e-12) := by
  constructor
  · intro h
    obtain ⟨-, -, ⟨k1, h1⟩, ⟨k2, h2⟩⟩ := sun hl hd hm hT h
    exact ⟨⟨k1, h1.trans (by norm_num)⟩, ⟨k2, h2.trans (by norm_num)⟩⟩
  · rintro ⟨s, ν, e, a, b, h, he, ra, rb, rfl⟩
    obtain ⟨-, n1, -, ⟨k, n2⟩⟩ := sun hl hd hm hT h
    obtain ⟨e1, e2⟩ := within_bound hl (env_one (m := 40) (by exact_mod_cast hT)) he (m := 2 ^ 64 / 50) (ε := 3402823669209384634633) (by decide +kernel)
    rw [ecc_v] at e1 e2
    have f0 : Fits (Solar.Eccentricity T) e (2 ^ 64 / 50, 3402823669209384634633) := ⟨e1, e2⟩
    have f1 : Fits ((Solar.TrueLon T).2 + k * (2 * π)) ν (8 * 2 ^ 64, 11229318108390969294291362045) := by
      have g : ν - ((Solar.TrueLon T).2 + k * (2 * π)) = ν - (Solar.TrueLon T).2 - k * (2 * π) := by ring
      constructor
      · have := abs_sub_abs_le_abs_sub ((Solar.TrueLon T).2 + k * (2 * π)) ν
        rw [abs_sub_comm, g] at this
        norm_num
        linarith
      · rw [g]; exact n2.trans (by norm_num)
    obtain ⟨a1, a2⟩ := within_bound hl (env2 f0 f1) ra (m := 11 * 2 ^ 64 / 10) (ε := 340282366920938463463374) (by decide +kernel)
    obtain ⟨-, b2⟩ := within_bound hl (env2 f0 f1) rb (m := 11 * 2 ^ 64 / 10) (ε := 272225893536750770770699685) (by decide +kernel)
    have va : num.val (at4 (Solar.Eccentricity T) ((Solar.TrueLon T).2 + k * (2 * π)) 0 0) = 1.000001018 * (1 - Solar.Eccentricity T * Solar.Eccentricity T) := by
      simp only [num, val_mul, val_sub, val_q, val_v, at4]; norm_num
    have vb : den.val (at4 (Solar.Eccentricity T) ((Solar.TrueLon T).2 + k * (2 * π)) 0 0) = 1 + Solar.Eccentricity T * Real.cos (Solar.TrueLon T).2 := by
      simp only [den, val_mul, val_add, val_q, val_v, val_cos, at4, cos_turn]; norm_num
    rw [va] at a1 a2
    rw [vb] at b2
    unfold Solar.Radius
    have eb : |Solar.Eccentricity T| ≤ 1 / 50 := e1.trans (by norm_num)
    refine (quot (a2.trans (by norm_num)) (b2.trans (by norm_num)) (a1.trans (by norm_num)) ?_).trans (by norm_num)
    have c1 : |Solar.Eccentricity T * Real.cos (Solar.TrueLon T).2| ≤ 1 / 50 * 1 := by
      rw [abs_mul]
      exact mul_le_mul eb (Real.abs_cos_le_one _) (abs_nonneg _) (by norm_num)
    have := (abs_le.mp c1).1
    linarith

/-- The apparent longitude of the Sun is right to 3.4·10⁻¹¹ radian, whole turns apart. -/
theorem C195_apparent {l : Trig} (hl : l.Ok) {fd red : ℝ → ℝ} (hd : DegOk fd) (hm : ModOk red) {T out : ℝ} (hT : |T| ≤ 40) (h : Solar64.ApparentLongitude l fd red T out) :
    ∃ k : ℤ, |out - Solar.ApparentLongitude T - k * (2 * π)| ≤ 3.4e-11 := by
  obtain ⟨s, ν, d, h, rd, ro⟩ := h
  obtain ⟨n1, -, ⟨k, n2⟩, -⟩ := sun hl hd hm hT h
  obtain ⟨d1, d2⟩ := within_bound hl (env_one (m := 40) (by exact_mod_cast hT)) rd (m := 77491 * 2 ^ 64) (ε := 9527906273786276976974489008) (by decide +kernel)
  obtain ⟨c1, c2⟩ := fd_near hd (m := 77491) (e := 28 / 1000000000000) (by norm_num at d1 ⊢; exact d1) (d2.trans (by norm_num)) (by norm_num)
  rw [Ωd_v] at c1 c2
  have k1 : |fl (0.00569 : ℝ) - 0.00569| ≤ 1 / 1000000000000000000 := by
    refine (fl_err _).trans ?_
    rw [abs_of_pos (by norm_num)]; norm_num
  have k2 : |fl (0.00478 : ℝ) - 0.00478| ≤ 1 / 1000000000000000000 := by
    refine (fl_err _).trans ?_
    rw [abs_of_pos (by norm_num)]; norm_num
  obtain ⟨u1, u2⟩ := fd_near hd (m := 0.00569) (by rw [abs_of_pos (by norm_num)]) k1 (by norm_num)
  obtain ⟨w1, w2⟩ := fd_near hd (m := 0.00478) (by rw [abs_of_pos (by norm_num)]) k2 (by norm_num)
  have f0 : Fits ((Solar.TrueLon T).1 + k * (2 * π)) s (8 * 2 ^ 64, 11229318108390969294291362045) := by
    have g : s - ((Solar.TrueLon T).1 + k * (2 * π)) = s - (Solar.TrueLon T).1 - k * (2 * π) := by ring
    constructor
    · have := abs_sub_abs_le_abs_sub ((Solar.TrueLon T).1 + k * (2 * π)) s
      rw [abs_sub_comm, g] at this
      norm_num
      linarith
    · rw [g]; exact n2.trans (by norm_num)
  have f1 : Fits (0.00569 * deg) (fd (fl 0.00569)) (2 ^ 64, 34028236692093846346337) := ⟨u2.trans (by norm_num), u1.trans (by norm_num)⟩
  have f2 : Fits (0.00478 * deg) (fd (fl 0.00478)) (2 ^ 64 / 10000, 34028236692093846346337) := ⟨w2.trans (by norm_num), w1.trans (by norm_num)⟩
  have f3 : Fits (Solar.node T) (fd d) (1400 * 2 ^ 64, 680564733841876926926749214) := ⟨c2.trans (by norm_num), c1.trans (by norm_num)⟩
  obtain ⟨-, b⟩ := within_bound hl (env4s f0 f1 f2 f3) ro (m := 10 * 2 ^ 64) (ε := 11569600475311907757754736652) (by decide +kernel)
  refine ⟨k, ?_⟩
  simp only [val_sub, val_mul, val_v, val_sin, at4] at b
  unfold Solar.ApparentLongitude
  rw [show out - ((Solar.TrueLon T).1 - 0.00569 * deg - 0.00478 * deg * Real.sin (Solar.node T)) - k * (2 * π) =
    out - ((Solar.TrueLon T).1 + k * (2 * π) - 0.00569 * deg - 0.00478 * deg * Real.sin (Solar.node T)) by ring]
  exact b.trans (by norm_num)

namespace Solar64v

theorem T_v (x : ℝ) : Solar64.T.val (fun _ => x - 2451545) = J2000Century x := by
  simp only [Solar64.T, val_div, val_q, val_v, J2000Century]; norm_num

theorem q_rat (ρ : ℕ → ℝ) (x : ℚ) : (q x.num x.den).val ρ = (x : ℝ) := by
  rw [val_q]; exact (Rat.cast_def x).symm

theorem coef_v (ρ : ℕ → ℝ) (x : ℚ) : (coef x).val ρ = (x : ℝ) * deg := by
  unfold coef; rw [val_mul, q_rat, val_p]; unfold deg; push_cast; ring

theorem arg_v (t : Pluto.Row) (T d : ℝ) : (arg t).val (at4 (Pluto.J T * deg) (Pluto.S T * deg) (Pluto.P T * deg) d) = t.arg T := by
  simp only [arg, val_add, val_mul, val_v, q_rat, at4, Pluto.Row.arg]

theorem lon_v (T d : ℝ) : lon.val (at4 (Pluto.J T * deg) (Pluto.S T * deg) (Pluto.P T * deg) d) = Pluto.total Pluto.Row.lA Pluto.Row.lB Pluto.t37 T * deg + d := by
  unfold lon Pluto.total
  rw [val_add, val_sumFrom, List.map_map, val_q, val_v, Int.cast_zero, zero_div, zero_add, ← List.sum_map_mul_right]
  refine congrArg (· + d) (congrArg List.sum (List.map_congr_left ?_))
  intro r _
  simp only [Function.comp, val_add, val_mul, val_sin, val_cos, arg_v, coef_v]
  ring

theorem lat_v (T d : ℝ) : lat.val (at4 (Pluto.J T * deg) (Pluto.S T * deg) (Pluto.P T * deg) d) = Pluto.total Pluto.Row.bA Pluto.Row.bB Pluto.t37 T * deg - d := by
  unfold lat Pluto.total
  rw [val_sub, val_sumFrom, List.map_map, val_q, val_v, Int.cast_zero, zero_div, zero_add, ← List.sum_map_mul_right]
  refine congrArg (· - d) (congrArg List.sum (List.map_congr_left ?_))
  intro r _
  simp only [Function.comp, val_add, val_mul, val_sin, val_cos, arg_v, coef_v]
  ring

theorem dist_v (T d : ℝ) : Solar64.dist.val (at4 (Pluto.J T * deg) (Pluto.S T * deg) (Pluto.P T * deg) d) = Pluto.total Pluto.Row.rA Pluto.Row.rB Pluto.t37 T + 40.7241346 := by
  unfold Solar64.dist Pluto.total
  rw [val_add, val_sumFrom, List.map_map, val_q, val_q, Int.cast_zero, zero_div, zero_add]
  congr 1
  · refine congrArg List.sum (List.map_congr_left ?_)
    intro r _
    simp only [Function.comp, val_add, val_mul, val_sin, val_cos, arg_v, q_rat]
  · norm_num

theorem date_fd {l : Trig} (hl : l.Ok) {fd : ℝ → ℝ} (hd : DegOk fd) {jde d : ℝ} (h : |jde - 2451545| ≤ 1461000) {e : Ex} {m ε : ℕ} (hw : within dateEnv e (m * 2 ^ 64) ε = true)
    (hε : (ε : ℝ) / 2 ^ 128 ≤ 1) (hr : Run l (fun _ => fl (jde - 2451545)) e d) :
    |fd d - e.val (fun _ => jde - 2451545) * deg| ≤ (ε : ℝ) / 2 ^ 128 * (1746 / 100000) + 1 / 2000000000000000 * (((m : ℝ) + 1) * (1746 / 100000)) + 1e-30 ∧
      |e.val (fun _ => jde - 2451545) * deg| ≤ m * (1746 / 100000) := by
  obtain ⟨b1, b2⟩ := within_bound hl (date_env h) hr hw
  exact fd_near hd (by
    refine b1.trans (le_of_eq ?_)
    rw [Nat.cast_mul]
    push_cast
    rw [mul_div_assoc, show (18446744073709551616 : ℝ) / 2 ^ 64 = 1 by norm_num, mul_one]) b2 hε

end Solar64v

/-- Pluto within forty centuries of J2000: longitude to 2.2·10⁻¹² radian, latitude to 2·10⁻¹² radian, distance to 1.8·10⁻¹¹ AU. -/
theorem C195_pluto {l : Trig} (hl : l.Ok) {fd : ℝ → ℝ} (hd : DegOk fd) {jde lo la r : ℝ} (h : |jde - 2451545| ≤ 1461000) (ho : Solar64.Heliocentric l fd jde lo la r) :
    |lo - (Pluto.Heliocentric jde).1| ≤ 2.2e-12 ∧ |la - (Pluto.Heliocentric jde).2.1| ≤ 2e-12 ∧ |r - (Pluto.Heliocentric jde).2.2| ≤ 1.8e-11 := by
  obtain ⟨J, S, P, d, rJ, rS, rP, rd, rlo, rla, rr⟩ := ho
  obtain ⟨j1, j2⟩ := date_fd hl hd h (m := 121431) (ε := 23139200950623815515509473305) (by decide +kernel) (by norm_num) rJ
  obtain ⟨s1, s2⟩ := date_fd hl hd h (m := 48935) (ε := 9527906273786276976974489008) (by decide +kernel) (by norm_num) rS
  obtain ⟨p1, p2⟩ := date_fd hl hd h (m := 6038) (ε := 1361129467683753853853498429) (by decide +kernel) (by norm_num) rP
  obtain ⟨d1, d2⟩ := date_fd hl hd h (m := 6038) (ε := 1361129467683753853853498429) (by decide +kernel) (by norm_num) rd
  have vJ : Jd.val (fun _ => jde - 2451545) = Pluto.J (J2000Century jde) := by
    simp only [Jd, val_add, val_mul, val_q, T_v, Pluto.J]; norm_num
  have vS : Sd.val (fun _ => jde - 2451545) = Pluto.S (J2000Century jde) := by
    simp only [Sd, val_add, val_mul, val_q, T_v, Pluto.S]; norm_num
  have vP : Pd.val (fun _ => jde - 2451545) = Pluto.P (J2000Century jde) := by
    simp only [Pd, val_add, val_mul, val_q, T_v, Pluto.P]; norm_num
  have vd : ld.val (fun _ => jde - 2451545) = 238.958116 + 144.96 * J2000Century jde := by
    simp only [ld, val_add, val_mul, val_q, T_v]; norm_num
  rw [vJ] at j1 j2
  rw [vS] at s1 s2
  rw [vP] at p1 p2
  rw [vd] at d1 d2
  have k1 : |fl (3.908239 : ℝ) - 3.908239| ≤ 1 / 1000000000000000 := by
    refine (fl_err _).trans ?_
    rw [abs_of_pos (by norm_num)]; norm_num
  obtain ⟨u1, u2⟩ := fd_near hd (m := 3.908239) (by rw [abs_of_pos (by norm_num)]) k1 (by norm_num)
  have fJ : Fits (Pluto.J (J2000Century jde) * deg) (fd J) (2130 * 2 ^ 64, 1020847100762815390390123822) := ⟨j2.trans (by norm_num), j1.trans (by norm_num)⟩
  have fS : Fits (Pluto.S (J2000Century jde) * deg) (fd S) (860 * 2 ^ 64, 340282366920938463463374607) := ⟨s2.trans (by norm_num), s1.trans (by norm_num)⟩
  have fP : Fits (Pluto.P (J2000Century jde) * deg) (fd P) (110 * 2 ^ 64, 340282366920938463463374607) := ⟨p2.trans (by norm_num), p1.trans (by norm_num)⟩
  have fd' : Fits ((238.958116 + 144.96 * J2000Century jde) * deg) (fd d) (110 * 2 ^ 64, 340282366920938463463374607) := ⟨d2.trans (by norm_num), d1.trans (by norm_num)⟩
  have fu : Fits (3.908239 * deg) (fd (fl 3.908239)) (110 * 2 ^ 64, 340282366920938463463374607) := ⟨u2.trans (by norm_num), u1.trans (by norm_num)⟩
  have f0 : Fits 0 0 (110 * 2 ^ 64, 340282366920938463463374607) := ⟨by rw [abs_zero]; positivity, by rw [sub_self, abs_zero]; positivity⟩
  have b1 := (within_bound hl (env4s fJ fS fP fd') rlo (m := 111 * 2 ^ 64) (ε := 748621207226064619619424136) (by decide +kernel)).2
  have b2 := (within_bound hl (env4s fJ fS fP fu) rla (m := 111 * 2 ^ 64) (ε := 680564733841876926926749214) (by decide +kernel)).2
  have b3 := (within_bound hl (env4s fJ fS fP f0) rr (m := 111 * 2 ^ 64) (ε := 6125082604576892342340742933) (by decide +kernel)).2
  rw [lon_v] at b1
  rw [lat_v] at b2
  rw [dist_v] at b3
  exact ⟨b1.trans (by norm_num), b2.trans (by norm_num), b3.trans (by norm_num)⟩

/-- The hypotheses can be met: the functions have results, here at J2000. -/
theorem C195_example (l : Trig) (fd red : ℝ → ℝ) : DegOk (fun x => x * deg) ∧ ModOk mod1 ∧ (∃ R, Solar64.Radius l fd red 0 R) ∧ ∃ lo la r, Solar64.Heliocentric l fd 2451545 lo la r := by
  refine ⟨fun x => by rw [sub_self, abs_zero]; positivity, fun x _ => ⟨?_, ?_⟩, ?_, ?_⟩
  · have hπ4 := pi_lt_d2
    norm_num at hπ4
    have h0 := Int.floor_le (x / (2 * π))
    have h1 := Int.lt_floor_add_one (x / (2 * π))
    have hp : 0 < 2 * π := by positivity
    rw [div_lt_iff₀ hp] at h1
    rw [le_div_iff₀ hp] at h0
    unfold mod1 pmod
    rw [abs_le]
    constructor <;> linarith
  · obtain ⟨k, hk⟩ := mod1_turn x
    exact ⟨k, by rw [hk, show x + k * (2 * π) - x - k * (2 * π) = 0 by ring, abs_zero]; norm_num⟩
  · obtain ⟨d, h1⟩ := run_exists l (fun _ => 0) Ld
    obtain ⟨m, h2⟩ := run_exists l (fun _ => 0) Md
    obtain ⟨c, h3⟩ := run_exists l (at4 0 (fd m) 0 0) Cd
    obtain ⟨e, h4⟩ := run_exists l (fun _ => 0) ecc
    obtain ⟨a, h5⟩ := run_exists l (at4 e (red (fl (fd m + fd c))) 0 0) num
    obtain ⟨b, h6⟩ := run_exists l (at4 e (red (fl (fd m + fd c))) 0 0) den
    exact ⟨_, _, _, e, a, b, ⟨d, fd m, c, h1, ⟨m, h2, rfl⟩, h3, rfl, rfl⟩, h4, h5, h6, rfl⟩
  · obtain ⟨J, h1⟩ := run_exists l (fun _ => fl (2451545 - 2451545)) Jd
    obtain ⟨S, h2⟩ := run_exists l (fun _ => fl (2451545 - 2451545)) Sd
    obtain ⟨P, h3⟩ := run_exists l (fun _ => fl (2451545 - 2451545)) Pd
    obtain ⟨d, h4⟩ := run_exists l (fun _ => fl (2451545 - 2451545)) ld
    obtain ⟨x, h5⟩ := run_exists l (at4 (fd J) (fd S) (fd P) (fd d)) lon
    obtain ⟨y, h6⟩ := run_exists l (at4 (fd J) (fd S) (fd P) (fd (fl 3.908239))) lat
    obtain ⟨z, h7⟩ := run_exists l (at4 (fd J) (fd S) (fd P) 0) dist
    exact ⟨x, y, z, J, S, P, d, h1, h2, h3, h4, h5, h6, h7⟩

end Verif.Props
