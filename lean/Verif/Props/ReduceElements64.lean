import Verif.Model.ReduceElements64
import Verif.Props.Precess64
import Verif.Props.Precess
/-
C194: reduction of orbital elements in double precision.
-/
namespace Verif.Props

open Real Verif.Spec Verif.Model Verif.Go Verif.Go.F64 Verif.Go.F64.Ex

namespace ReduceElements64v

open ReduceElements64 Precess64v Coord64v

/-- What the turn of an orbit as a whole says of its elements. -/
theorem turn {i Ω ω i' Ω' ω' ψ η P : ℝ}
    (H : ∀ ν, orbitDir i' Ω' (ω' + ν) = rotZ ψ (rotX (-η) (rotZ (-P) (orbitDir i Ω (ω + ν))))) :
    Real.cos i' = Real.cos i * Real.cos η + Real.sin i * Real.sin η * Real.cos (Ω - P) ∧
    Real.sin i' * Real.sin (Ω' - ψ) = Real.sin i * Real.sin (Ω - P) ∧
    Real.sin i' * Real.cos (Ω' - ψ) = Real.cos η * Real.sin i * Real.cos (Ω - P) - Real.sin η * Real.cos i ∧
    Real.sin i' * Real.sin (ω' - ω) = -Real.sin η * Real.sin (Ω - P) ∧
    Real.sin i' * Real.cos (ω' - ω) = Real.sin i * Real.cos η - Real.cos i * Real.sin η * Real.cos (Ω - P) := by
  have H' : ∀ u, orbitDir i' (Ω' - ψ) (ω' - ω + u) = rotX (-η) (orbitDir i (Ω - P) u) := by
    intro u
    have h := H (u - ω)
    rw [show ω' + (u - ω) = ω' - ω + u by ring, show ω + (u - ω) = u by ring] at h
    have h2 := congrArg (rotZ (-ψ)) h
    unfold orbitDir at h2 ⊢
    rw [rotZ_rotZ, rotZ_rotZ, rotZ_rotZ] at h2
    rw [show -ψ + ψ = 0 by ring, show -ψ + Ω' = Ω' - ψ by ring, show -P + Ω = Ω - P by ring] at h2
    rw [h2]
    ext j; fin_cases j <;> simp [rotZ]
  generalize Ω' - ψ = N at *
  generalize Ω - P = n at *
  generalize ω' - ω = a at *
  have A := H' 0
  have B := H' (π / 2)
  have a0 := congrFun (congrArg WithLp.ofLp A) 0
  have a1 := congrFun (congrArg WithLp.ofLp A) 1
  have a2 := congrFun (congrArg WithLp.ofLp A) 2
  have b0 := congrFun (congrArg WithLp.ofLp B) 0
  have b1 := congrFun (congrArg WithLp.ofLp B) 1
  have b2 := congrFun (congrArg WithLp.ofLp B) 2
  simp [orbitDir, rotZ, rotX, Real.cos_add_pi_div_two, Real.sin_add_pi_div_two] at a0 a1 a2 b0 b1 b2
  have pa := Real.sin_sq_add_cos_sq a
  have pN := Real.sin_sq_add_cos_sq N
  have pn := Real.sin_sq_add_cos_sq n
  have pη := Real.sin_sq_add_cos_sq η
  generalize Real.sin a = sa at *
  generalize Real.cos a = ca at *
  generalize Real.sin N = sN at *
  generalize Real.cos N = cN at *
  generalize Real.sin n = sn at *
  generalize Real.cos n = cn at *
  generalize Real.sin η = sη at *
  generalize Real.cos η = cη at *
  generalize Real.sin i' = si' at *
  generalize Real.cos i' = ci' at *
  generalize Real.sin i = si at *
  generalize Real.cos i = ci at *
  refine ⟨?_, ?_, ?_, by linarith, by linarith⟩
  · have c : (cN * ca - sN * (ci' * sa)) * (-(sN * -sa) * 0 + (sN * -sa + cN * (ci' * ca))) - (sN * ca + cN * (ci' * sa)) * (cN * -sa - sN * (ci' * ca)) = ci' := by
      linear_combination ci' * (sN ^ 2 + cN ^ 2) * pa + ci' * pN
    grind
  · have c : (sN * ca + cN * (ci' * sa)) * (si' * ca) - si' * sa * (sN * -sa + cN * (ci' * ca)) = si' * sN := by
      linear_combination si' * sN * pa
    grind
  · have c : (cN * ca - sN * (ci' * sa)) * (si' * ca) - si' * sa * (cN * -sa - sN * (ci' * ca)) = si' * cN := by
      linear_combination si' * cN * pa
    grind

theorem inc_near {f : Sep64.Inv} (hf : f.Ok) {x i' : ℝ} (i0 : 0 ≤ i') (i1 : i' ≤ π) (hx : |x - Real.cos i'| ≤ 12 / 1000000000000000) :
    (∀ r, ReduceElements64.acos f x = some r → |r - i'| ≤ 3e-7) ∧
      (π / 1080 ≤ i' → i' ≤ π - π / 1080 → ∃ r, ReduceElements64.acos f x = some r ∧ |r - i'| ≤ 2e-11) := by
  have hπ4 := pi_lt_d2
  norm_num at hπ4
  unfold ReduceElements64.acos
  constructor
  · intro r hr
    split at hr
    · rename_i h
      rw [Option.some.injEq] at hr
      subst hr
      have e1 := hf.acos x h
      obtain ⟨h0, h1⟩ := abs_le.mp h
      have e2 := arccos_holder (δ := 8 / 100000000) h0 h1 (Real.neg_one_le_cos i') (Real.cos_le_one i') (hx.trans (by norm_num)) (by norm_num)
      rw [Real.arccos_cos i0 i1] at e2
      refine (abs_sub_le _ (arccos x) _).trans ((add_le_add e1 e2).trans ?_)
      norm_num
      linarith
    · simp at hr
  · intro j0 j1
    obtain ⟨kt, -, -⟩ := Sep64v.cos_ten
    norm_num at kt
    have c1 : Real.cos i' ≤ Real.cos (π / 1080) := Real.cos_le_cos_of_nonneg_of_le_pi (by positivity) i1 j0
    have c2 : Real.cos (π - π / 1080) ≤ Real.cos i' := Real.cos_le_cos_of_nonneg_of_le_pi i0 (by have := pi_pos; linarith) j1
    rw [Real.cos_pi_sub] at c2
    obtain ⟨x0, x1⟩ := abs_le.mp hx
    have h : |x| ≤ 1 := by rw [abs_le]; constructor <;> linarith
    obtain ⟨h0, h1⟩ := abs_le.mp h
    refine ⟨f.acos x, if_pos h, ?_⟩
    have e1 := hf.acos x h
    have e2 := Sep64v.arccos_close h0 h1 j0 j1 hx
    refine (abs_sub_le _ (arccos x) _).trans ((add_le_add e1 e2).trans ?_)
    norm_num

/-- `lon_near` with a sine. -/
theorem lon_near' {f : Sep64.Inv} (hf : Atan2Ok f) {a b u i : ℝ} (hi : 0 ≤ Real.sin i)
    (ha : |a - Real.sin i * Real.sin u| ≤ 12 / 1000000000000000) (hb : |b - Real.sin i * Real.cos u| ≤ 12 / 1000000000000000) :
    ∃ k : ℤ, Real.sin i * |f.atan2 a b - u - k * (2 * π)| ≤ 77 / 1000000000000000 := by
  rw [← Real.cos_pi_div_two_sub] at *
  exact lon_near hf hi ha hb

/-- Constants L and J of the FK4 reduction to 10⁻¹⁵, inclination and node of at most 8 radians. -/
def envF : List (ℕ × ℕ) := [(2 ^ 64, 374310603613032309809712), (2 ^ 64, 374310603613032309809712), (8 * 2 ^ 64, 0), (8 * 2 ^ 64, 0)]

end ReduceElements64v

open ReduceElements64 ReduceElements64v Precess64v

/-- i', Ω', ω' are the elements of the orbit turned as a whole by the precession of the ecliptic.  The inclination returned is right to 2·10⁻¹¹ radian if the true one
is between 10′ and 179° 50′, and to 3·10⁻⁷ radian if it is a number at all; node and argument of perihelion are right to 10⁻¹³ radian over the sine of the true inclination,
whole turns apart. -/
theorem C194_Reduce {l : Trig} (hl : l.Ok) {f : Sep64.Inv} (hf : f.Ok) (ha : Atan2Ok f) {e0 e1 i Ω ω i' Ω' ω' : ℝ} {inc : Option ℝ} {peri node : ℝ}
    (h1 : |e0| ≤ 6000) (h2 : |e1| ≤ 6000) (h3 : |i| ≤ 8) (h4 : |Ω| ≤ 8) (h5 : |ω| ≤ 8) (i0 : 0 ≤ i') (i1 : i' ≤ π)
    (H : ∀ ν, orbitDir i' Ω' (ω' + ν) =
      rotZ ((eclTrue e0 e1).2.1 + (eclTrue e0 e1).2.2) (rotX (-(eclTrue e0 e1).1) (rotZ (-(eclTrue e0 e1).2.1) (orbitDir i Ω (ω + ν)))))
    (ho : Reduce l f e0 e1 i ω Ω inc peri node) :
    (π / 1080 ≤ i' → i' ≤ π - π / 1080 → ∃ r, inc = some r ∧ |r - i'| ≤ 2e-11) ∧ (∀ r, inc = some r → |r - i'| ≤ 3e-7) ∧
      (∃ k : ℤ, Real.sin i' * |node - Ω' - k * (2 * π)| ≤ 1e-13) ∧ ∃ k : ℤ, Real.sin i' * |peri - ω' - k * (2 * π)| ≤ 1e-13 := by
  obtain ⟨y, hy, x, n1, n2, p1, p2, w, rx, rn1, rn2, rp1, rp2, rw', rfl, rfl, rfl⟩ := ho
  have hv := ecl_val (e1 := e1) (α := i) (δ := Ω) hy
  rw [← hv] at H
  dsimp only at H
  have bx := (runP hl h1 h2 h3 h4 (F := X) (m := 3 * 2 ^ 64) (ε := 4083388403051261561560495) (by decide +kernel) rx).2
  have bn1 := (runP hl h1 h2 h3 h4 (F := Ny) (m := 2 * 2 ^ 64) (ε := 4083388403051261561560495) (by decide +kernel) rn1).2
  have bn2 := (runP hl h1 h2 h3 h4 (F := Nx) (m := 3 * 2 ^ 64) (ε := 4083388403051261561560495) (by decide +kernel) rn2).2
  have bp1 := (runP hl h1 h2 h3 h4 (F := Py) (m := 2 * 2 ^ 64) (ε := 4083388403051261561560495) (by decide +kernel) rp1).2
  have bp2 := (runP hl h1 h2 h3 h4 (F := Px) (m := 3 * 2 ^ 64) (ε := 4083388403051261561560495) (by decide +kernel) rp2).2
  obtain ⟨mw, bw⟩ := runP hl h1 h2 h3 h4 (F := fun y => Precess64.Pi y + Precess64.pp y) (m := 85 * 2 ^ 64 / 10) (ε := 2722258935367507707706996) (by decide +kernel) rw'
  obtain ⟨t1, t2, t3, t4, t5⟩ := turn H
  simp only [X, Ny, Nx, Py, Px, val_add, val_sub, val_mul, val_sin, val_cos, val_v, Sep64.args] at bx bn1 bn2 bp1 bp2 bw mw
  rw [show ∀ ρ, (q 0 1).val ρ = 0 from fun ρ => by rw [val_q]; norm_num, zero_sub] at bp1
  generalize (Precess64.η y).val (Sep64.args e0 e1 i Ω) = Z1 at *
  generalize (Precess64.Pi y).val (Sep64.args e0 e1 i Ω) = Z2 at *
  generalize (Precess64.pp y).val (Sep64.args e0 e1 i Ω) = Z3 at *
  rw [← t1] at bx
  rw [← t2] at bn1
  rw [← t3] at bn2
  rw [← t4] at bp1
  rw [← t5] at bp2
  replace bx := bx.trans (show _ ≤ (12 / 1000000000000000 : ℝ) by norm_num)
  replace bn1 := bn1.trans (show _ ≤ (12 / 1000000000000000 : ℝ) by norm_num)
  replace bn2 := bn2.trans (show _ ≤ (12 / 1000000000000000 : ℝ) by norm_num)
  replace bp1 := bp1.trans (show _ ≤ (12 / 1000000000000000 : ℝ) by norm_num)
  replace bp2 := bp2.trans (show _ ≤ (12 / 1000000000000000 : ℝ) by norm_num)
  replace bw := bw.trans (show _ ≤ (8 / 1000000000000000 : ℝ) by norm_num)
  obtain ⟨c1, c2⟩ := inc_near hf i0 i1 bx
  have s0 : 0 ≤ Real.sin i' := Real.sin_nonneg_of_nonneg_of_le_pi i0 i1
  have s1 := Real.sin_le_one i'
  have hw : |w| ≤ 9 := by
    have := abs_sub_abs_le_abs_sub w (Z2 + Z3)
    norm_num at mw
    linarith
  refine ⟨c2, c1, ?_, ?_⟩
  · obtain ⟨⟨-, k, hk⟩, -⟩ := sum_near s0 s1 (ha n1 n2).1 bw hw (lon_near' ha s0 bn1 bn2)
    refine ⟨k, ?_⟩
    rw [sub_add_cancel, add_comm] at hk
    exact hk.trans (by norm_num)
  · obtain ⟨⟨-, k, hk⟩, -⟩ := sum_near s0 s1 (ha p1 p2).1 (w := ω) (W := ω) (by rw [sub_self, abs_zero]; norm_num) (h5.trans (by norm_num)) (lon_near' ha s0 bp1 bp2)
    refine ⟨k, ?_⟩
    rw [sub_add_cancel, add_comm] at hk
    exact hk.trans (by norm_num)

/-- The same for the reduction from B1950 of FK4 to J2000 of FK5, by the angles 5°.19856209, 0°.00651966 and 4°.50001688, the code's constants being right to 10⁻¹⁵ radian. -/
theorem C194_ReduceFK4 {l : Trig} (hl : l.Ok) {f : Sep64.Inv} (hf : f.Ok) (ha : Atan2Ok f) {red : ℝ → ℝ} (hr : RedOk red) {L J L' i Ω ω i' Ω' ω' : ℝ} {inc : Option ℝ} {peri node : ℝ}
    (hL : |L - 5.19856209 * (π / 180)| ≤ 1e-15) (hJ : |J - 0.00651966 * (π / 180)| ≤ 1e-15) (hL' : |L' - 4.50001688 * (π / 180)| ≤ 1e-15)
    (h3 : |i| ≤ 8) (h4 : |Ω| ≤ 8) (h5 : |ω| ≤ 8) (i0 : 0 ≤ i') (i1 : i' ≤ π)
    (H : ∀ ν, orbitDir i' Ω' (ω' + ν) =
      rotZ (-(4.50001688 * (π / 180))) (rotX (0.00651966 * (π / 180)) (rotZ (5.19856209 * (π / 180)) (orbitDir i Ω (ω + ν)))))
    (ho : ReduceFK4 l f red L J L' i ω Ω inc peri node) :
    (π / 1080 ≤ i' → i' ≤ π - π / 1080 → ∃ r, inc = some r ∧ |r - i'| ≤ 2e-11) ∧ (∀ r, inc = some r → |r - i'| ≤ 3e-7) ∧
      (∃ k : ℤ, Real.sin i' * |node - Ω' - k * (2 * π)| ≤ 1e-13) ∧ ∃ k : ℤ, Real.sin i' * |peri - ω' - k * (2 * π)| ≤ 1e-13 := by
  obtain ⟨x, n1, n2, p1, p2, rx, rn1, rn2, rp1, rp2, rfl, rfl, rfl⟩ := ho
  have hπ4 := pi_lt_d2
  have hπ0 := pi_pos
  norm_num at hπ4 hL hJ hL'
  have m1 : |(519856209 / 100000000 * (π / 180) : ℝ)| ≤ 1 := by rw [abs_of_pos (by positivity)]; linarith
  have m2 : |(325983 / 50000000 * (π / 180) : ℝ)| ≤ 1 := by rw [abs_of_pos (by positivity)]; linarith
  have m3 : |(56250211 / 12500000 * (π / 180) : ℝ)| ≤ 1 := by rw [abs_of_pos (by positivity)]; linarith
  have g1 : (5.19856209 : ℝ) = 519856209 / 100000000 := by norm_num
  have g2 : (0.00651966 : ℝ) = 325983 / 50000000 := by norm_num
  have g3 : (4.50001688 : ℝ) = 56250211 / 12500000 := by norm_num
  rw [g1, g2, g3] at H
  generalize (519856209 / 100000000 * (π / 180) : ℝ) = L0 at *
  generalize (325983 / 50000000 * (π / 180) : ℝ) = J0 at *
  generalize (56250211 / 12500000 * (π / 180) : ℝ) = P0 at *
  have env : ∀ j p, envF[j]? = some p → Fits (Sep64.args L0 J0 i Ω j) (Sep64.args L J i Ω j) p := by
    intro j p hp
    unfold envF at hp
    rcases j with _ | _ | _ | _ | j <;> simp at hp
    · subst hp; exact ⟨by norm_num; exact m1, hL.trans (by norm_num)⟩
    · subst hp; exact ⟨by norm_num; exact m2, hJ.trans (by norm_num)⟩
    · subst hp; exact ⟨by norm_num; exact h3, by simp [Sep64.args]⟩
    · subst hp; exact ⟨by norm_num; exact h4, by simp [Sep64.args]⟩
  have bx := (within_bound hl env rx (m := 3 * 2 ^ 64) (ε := 4083388403051261561560495) (by decide +kernel)).2
  have bn1 := (within_bound hl env rn1 (m := 2 * 2 ^ 64) (ε := 4083388403051261561560495) (by decide +kernel)).2
  have bn2 := (within_bound hl env rn2 (m := 3 * 2 ^ 64) (ε := 4083388403051261561560495) (by decide +kernel)).2
  have bp1 := (within_bound hl env rp1 (m := 2 * 2 ^ 64) (ε := 4083388403051261561560495) (by decide +kernel)).2
  have bp2 := (within_bound hl env rp2 (m := 3 * 2 ^ 64) (ε := 4083388403051261561560495) (by decide +kernel)).2
  obtain ⟨t1, t2, t3, t4, t5⟩ := turn (η := -J0) (P := -L0) (ψ := -P0) (by simpa only [neg_neg] using H)
  simp only [fX, fNy, fNx, fPy, fPx, val_add, val_sub, val_mul, val_sin, val_cos, val_v, Sep64.args] at bx bn1 bn2 bp1 bp2
  simp only [Real.sin_neg, Real.cos_neg, sub_neg_eq_add, neg_neg] at t1 t2 t3 t4 t5
  rw [show Real.cos i * Real.cos J0 - Real.sin i * Real.sin J0 * Real.cos (L0 + Ω) = Real.cos i' by rw [t1, add_comm L0]; ring] at bx
  rw [show Real.sin i * Real.sin (L0 + Ω) = Real.sin i' * Real.sin (Ω' + P0) by rw [t2, add_comm L0]] at bn1
  rw [show Real.cos i * Real.sin J0 + Real.sin i * Real.cos J0 * Real.cos (L0 + Ω) = Real.sin i' * Real.cos (Ω' + P0) by rw [t3, add_comm L0]; ring] at bn2
  rw [show Real.sin J0 * Real.sin (L0 + Ω) = Real.sin i' * Real.sin (ω' - ω) by rw [t4, add_comm L0]] at bp1
  rw [show Real.sin i * Real.cos J0 + Real.cos i * Real.sin J0 * Real.cos (L0 + Ω) = Real.sin i' * Real.cos (ω' - ω) by rw [t5, add_comm L0]; ring] at bp2
  replace bx := bx.trans (show _ ≤ (12 / 1000000000000000 : ℝ) by norm_num)
  replace bn1 := bn1.trans (show _ ≤ (12 / 1000000000000000 : ℝ) by norm_num)
  replace bn2 := bn2.trans (show _ ≤ (12 / 1000000000000000 : ℝ) by norm_num)
  replace bp1 := bp1.trans (show _ ≤ (12 / 1000000000000000 : ℝ) by norm_num)
  replace bp2 := bp2.trans (show _ ≤ (12 / 1000000000000000 : ℝ) by norm_num)
  obtain ⟨c1, c2⟩ := inc_near hf i0 i1 bx
  have s0 : 0 ≤ Real.sin i' := Real.sin_nonneg_of_nonneg_of_le_pi i0 i1
  have s1 := Real.sin_le_one i'
  have fin : ∀ z a, |z| ≤ 32 → (∃ k : ℤ, Real.sin i' * |z - a - k * (2 * π)| ≤ 87 / 1000000000000000) → ∃ k : ℤ, Real.sin i' * |red z - a - k * (2 * π)| ≤ 1e-13 := by
    intro z a hz h
    obtain ⟨k, hk⟩ := Coord64v.red_close (K := 1) hr s0 s1 le_rfl hz (by simpa only [mul_one] using h)
    exact ⟨k, hk.trans (by norm_num)⟩
  refine ⟨c2, c1, ?_, ?_⟩
  · have hw : |-L' - -P0| ≤ 8 / 1000000000000000 := by
      rw [show -L' - -P0 = -(L' - P0) by ring, abs_neg]
      exact hL'.trans (by norm_num)
    obtain ⟨⟨q1, q2⟩, -⟩ := sum_near s0 s1 (ha n1 n2).1 hw (by
      rw [abs_neg]
      have := abs_sub_abs_le_abs_sub L' P0
      linarith) (lon_near' ha s0 bn1 bn2)
    rw [← sub_eq_add_neg] at q1 q2
    rw [show Ω' + P0 + -P0 = Ω' by ring] at q2
    exact fin _ _ q1 q2
  · obtain ⟨⟨q1, q2⟩, -⟩ := sum_near s0 s1 (ha p1 p2).1 (w := ω) (W := ω) (by rw [sub_self, abs_zero]; norm_num) (h5.trans (by norm_num)) (lon_near' ha s0 bp1 bp2)
    rw [sub_add_cancel, add_comm _ ω] at q2
    rw [add_comm _ ω] at q1
    exact fin _ _ q1 q2

/-- The hypotheses can be met: between equal epochs an orbit of inclination 1/2, node 1 and perihelion 2 comes back with its inclination. -/
theorem C194_example {l : Trig} (hl : l.Ok) {f : Sep64.Inv} (hf : f.Ok) (ha : Atan2Ok f) :
    (∃ inc peri node, Reduce l f 1950 1950 (1 / 2) 2 1 inc peri node) ∧
      ∀ inc peri node, Reduce l f 1950 1950 (1 / 2) 2 1 inc peri node → ∃ r, inc = some r ∧ |r - 1 / 2| ≤ 2e-11 := by
  constructor
  · obtain ⟨x, g1⟩ := run_exists l (Sep64.args 1950 1950 (1 / 2) 1) (X true)
    obtain ⟨n1, g2⟩ := run_exists l (Sep64.args 1950 1950 (1 / 2) 1) (Ny true)
    obtain ⟨n2, g3⟩ := run_exists l (Sep64.args 1950 1950 (1 / 2) 1) (Nx true)
    obtain ⟨p1, g4⟩ := run_exists l (Sep64.args 1950 1950 (1 / 2) 1) (Py true)
    obtain ⟨p2, g5⟩ := run_exists l (Sep64.args 1950 1950 (1 / 2) 1) (Px true)
    obtain ⟨w, g6⟩ := run_exists l (Sep64.args 1950 1950 (1 / 2) 1) (Precess64.Pi true + Precess64.pp true)
    exact ⟨_, _, _, true, by norm_num, x, n1, n2, p1, p2, w, g1, g2, g3, g4, g5, g6, rfl, rfl, rfl⟩
  · intro inc peri node ho
    have hπ3 := pi_gt_d2
    norm_num at hπ3
    have e1 : (eclTrue 1950 1950).1 = 0 := by unfold eclTrue; simp
    have e2 : (eclTrue 1950 1950).2.2 = 0 := by unfold eclTrue; simp
    have y0 : ∀ p : V3, rotX 0 p = p := fun p => by
      ext j; fin_cases j <;> simp [rotX]
    refine (C194_Reduce (i' := 1 / 2) (Ω' := 1) (ω' := 2) hl hf ha (by norm_num) (by norm_num) (by norm_num) (by norm_num) (by norm_num) (by norm_num) (by linarith) ?_ ho).1
      (by have := pi_lt_d2; norm_num at this; linarith) (by linarith)
    intro ν
    rw [e1, e2, neg_zero, y0, add_zero]
    unfold orbitDir
    rw [rotZ_rotZ, rotZ_rotZ]
    congr 1
    ring

end Verif.Props
