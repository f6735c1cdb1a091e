import Verif.Props.Precess
import Verif.Lemmas.Planet
import Mathlib.Analysis.Real.Pi.Bounds
import Mathlib.Analysis.SpecialFunctions.Trigonometric.Bounds
import Mathlib.Tactic
/-
C146: package elementequinox.
-/
namespace Verif.Props

open Real Verif.Go Verif.Spec Verif.Lemmas Verif.Model Verif.Model.Precess

/-- C146.  B1950 FK4 to J2000 FK5: the orbit is turned as a whole by one rotation, at every angle ν from the perihelion. -/
theorem C146_fk4_rotation (ν : ℝ) (e : Elements ℝ) :
    let r := reduceFK4Val e
    sin r.Inc ≠ 0 →
    orbitDir r.Inc r.Node (r.Peri + ν) =
      rotZ (-(4.50001688 * (π / 180))) (rotX (0.00651966 * (π / 180)) (rotZ (5.19856209 * (π / 180)) (orbitDir e.Inc e.Node (e.Peri + ν)))) := by
  intro r hs
  obtain ⟨L, hL⟩ : ∃ L : ℝ, L = 5.19856209 * (π / 180) := ⟨_, rfl⟩
  obtain ⟨J, hJ⟩ : ∃ J : ℝ, J = 0.00651966 * (π / 180) := ⟨_, rfl⟩
  obtain ⟨P, hP⟩ : ∃ P : ℝ, P = 4.50001688 * (π / 180) := ⟨_, rfl⟩
  have hr : r = ⟨arccos (cos e.Inc * cos J - sin e.Inc * sin J * cos (L + e.Node)),
      mod1 (e.Peri + atan2 (sin J * sin (L + e.Node)) (sin e.Inc * cos J + cos e.Inc * sin J * cos (L + e.Node))),
      mod1 (atan2 (sin e.Inc * sin (L + e.Node)) (cos e.Inc * sin J + sin e.Inc * cos J * cos (L + e.Node)) - P)⟩ := by
    simp only [r, reduceFK4Val, Precess.deg, lit_real, sin_real, cos_real, acos_real, atan2_real, mod1_real, pi_real, hL, hJ, hP]
    norm_num
  rw [← hL, ← hJ, ← hP]
  have h := reduce_turn e.Inc (L + e.Node) (-J) e.Peri ν (-L) (-P)
  rw [cos_neg, sin_neg, neg_neg, neg_neg, show L + e.Node + -L = e.Node by ring] at h
  have z1 : cos e.Inc * cos J + sin e.Inc * -sin J * cos (L + e.Node) = cos e.Inc * cos J - sin e.Inc * sin J * cos (L + e.Node) := by ring
  have z2 : cos J * sin e.Inc * cos (L + e.Node) - -sin J * cos e.Inc = cos e.Inc * sin J + sin e.Inc * cos J * cos (L + e.Node) := by ring
  have z3 : sin e.Inc * cos J - cos e.Inc * -sin J * cos (L + e.Node) = sin e.Inc * cos J + cos e.Inc * sin J * cos (L + e.Node) := by ring
  rw [z1, z2, z3] at h
  have hm : ∀ i Ω u v : ℝ, orbitDir i (mod1 Ω) (mod1 u + v) = orbitDir i Ω (u + v) := by
    intro i Ω u v
    unfold orbitDir rotZ
    rw [cos_add, sin_add, cos_mod1, sin_mod1, cos_mod1, sin_mod1, ← cos_add, ← sin_add]
  rw [hr] at hs ⊢
  dsimp only at hs ⊢
  rw [hm, show ∀ x : ℝ, x - P = -P + x from fun x => by ring]
  have h2 := h hs
  rw [neg_neg] at h2
  exact h2

/-- The reduction of `ReduceB1950ToJ2000`, in numbers. -/
theorem b1950_eq (e : Elements ℝ) : reduceB1950Val e =
    ⟨arcsin (sqrt ((sin e.Inc * sin (e.Node - 174.298782 * (π / 180))) ^ 2 +
        (0.9999999935 * sin e.Inc * cos (e.Node - 174.298782 * (π / 180)) - 0.0001139788 * cos e.Inc) ^ 2)),
      mod1 (e.Peri + atan2 (-0.0001139788 * sin (e.Node - 174.298782 * (π / 180)))
        (0.9999999935 * sin e.Inc - 0.0001139788 * cos e.Inc * cos (e.Node - 174.298782 * (π / 180)))),
      mod1 (174.997194 * (π / 180) + atan2 (sin e.Inc * sin (e.Node - 174.298782 * (π / 180)))
        (0.9999999935 * sin e.Inc * cos (e.Node - 174.298782 * (π / 180)) - 0.0001139788 * cos e.Inc))⟩ := by
  simp only [reduceB1950Val, Precess.deg, lit_real, sin_real, cos_real, asin_real, atan2_real, mod1_real, pi_real, hypot_real]
  norm_num

/-- The angle of the two ecliptics. -/
noncomputable def ecl1950 : ℝ := arctan (0.0001139788 / 0.9999999935)

theorem ecl1950_polar : ∃ κ : ℝ, 1 - 9e-12 ≤ κ ∧ κ ≤ 1 ∧ 1 - 8.9e-12 ≤ κ ^ 2 ∧ κ * cos ecl1950 = 0.9999999935 ∧ κ * sin ecl1950 = 0.0001139788 := by
  refine ⟨sqrt (0.9999999935 ^ 2 + 0.0001139788 ^ 2), ?_, ?_, ?_, ?_, ?_⟩
  · apply le_sqrt_of_sq_le; norm_num
  · rw [sqrt_le_one]; norm_num
  · rw [sq_sqrt (by norm_num)]; norm_num
  · exact (arctan_polar 0.0001139788 (by norm_num : (0 : ℝ) < 0.9999999935)).1
  · exact (arctan_polar 0.0001139788 (by norm_num : (0 : ℝ) < 0.9999999935)).2

/-- Carrying an orbit from the mean ecliptic of B1950.0 to that of J2000.0: the turn about the line where the two ecliptics cross. -/
noncomputable def toJ2000 (v : V3) : V3 := rotZ (174.997194 * (π / 180)) (rotX (-ecl1950) (rotZ (-(174.298782 * (π / 180))) v))

theorem atan2_scale {k : ℝ} (hk : 0 < k) (y x : ℝ) : atan2 (k * y) (k * x) = atan2 y x := by
  unfold atan2
  have : (⟨k * x, k * y⟩ : ℂ) = (k : ℂ) * ⟨x, y⟩ := by apply Complex.ext <;> simp
  rw [this, Complex.arg_real_mul _ hk]

theorem norm_rotZ_sub (a : ℝ) (v w : V3) : ‖rotZ a v - rotZ a w‖ = ‖v - w‖ := by
  have h : rotZ a v - rotZ a w = rotZ a (v - w) := by
    unfold rotZ
    ext j; fin_cases j <;> simp <;> ring
  rw [h, ← sqrt_sq (norm_nonneg (rotZ a (v - w))), ← real_inner_self_eq_norm_sq, inner_rotZ, real_inner_self_eq_norm_sq, sqrt_sq (norm_nonneg _)]

/-- Two orbits near each other in inclination and node. -/
theorem orbit_near (i i' n n' w : ℝ) :
    ‖orbitDir i n w - orbitDir i' n' w‖ ≤ (|cos i - cos i'| + |sin i - sin i'|) + (|cos n - cos n'| + |sin n - sin n'|) := by
  have key : ∀ p q : ℝ, sqrt (p ^ 2 + q ^ 2) ≤ |p| + |q| := fun p q => by
    rw [sqrt_le_left (by positivity), add_sq, sq_abs, sq_abs]
    nlinarith [mul_nonneg (abs_nonneg p) (abs_nonneg q)]
  have fw := sin_sq_add_cos_sq w
  have fn := sin_sq_add_cos_sq n
  have fi := sin_sq_add_cos_sq i'
  have h1 : ‖orbitDir i n w - orbitDir i' n w‖ ≤ |cos i - cos i'| + |sin i - sin i'| := by
    refine le_trans ?_ (key _ _)
    unfold orbitDir
    rw [norm_rotZ_sub, rotX_vec, rotX_vec, sub_eq_add_neg, neg_vec, add_vec, norm_vec]
    apply sqrt_le_sqrt
    have := mul_nonneg (sq_nonneg (cos w)) (add_nonneg (sq_nonneg (cos i - cos i')) (sq_nonneg (sin i - sin i')))
    linear_combination this + ((cos i - cos i') ^ 2 + (sin i - sin i') ^ 2) * fw
  have h2 : ‖orbitDir i' n w - orbitDir i' n' w‖ ≤ |cos n - cos n'| + |sin n - sin n'| := by
    refine le_trans ?_ (key _ _)
    unfold orbitDir
    rw [rotX_vec, rotZ_vec, rotZ_vec, sub_eq_add_neg, neg_vec, add_vec, norm_vec]
    apply sqrt_le_sqrt
    have hb : cos w ^ 2 + (cos i' * sin w) ^ 2 ≤ 1 := by nlinarith [mul_nonneg (sq_nonneg (sin i')) (sq_nonneg (sin w))]
    have := mul_le_mul_of_nonneg_left hb (by positivity : 0 ≤ (cos n - cos n') ^ 2 + (sin n - sin n') ^ 2)
    nlinarith
  calc _ = ‖(orbitDir i n w - orbitDir i' n w) + (orbitDir i' n w - orbitDir i' n' w)‖ := by congr 1; abel
    _ ≤ _ := (norm_add_le _ _).trans (add_le_add h1 h2)

theorem near_node {A B Be h' h : ℝ} (hh' : 1e-5 ≤ h') (hh : 0 < h) (hB : |B - Be| ≤ 9e-12) (hd : |h' - h| ≤ 9e-12)
    (hBe : |Be| ≤ h) (hA : |A| ≤ h) : |B / h' - Be / h| ≤ 1.8e-6 ∧ |A / h' - A / h| ≤ 0.9e-6 := by
  have p : 0 < h' := by linarith
  have i1 : 1 / h' ≤ 1e5 := by rw [div_le_iff₀ p]; linarith
  have i0 : 0 < 1 / h' := by positivity
  have q : ∀ X : ℝ, |X| ≤ h → |X / h' - X / h| ≤ 0.9e-6 := fun X hX => by
    have : X / h' - X / h = (X / h) * ((h - h') * (1 / h')) := by field_simp
    rw [this, abs_mul, abs_mul, abs_of_pos i0, abs_div, abs_of_pos hh, abs_sub_comm h h']
    have a1 : |X| / h ≤ 1 := by rw [div_le_one hh]; exact hX
    have a2 : |h' - h| * (1 / h') ≤ 9e-12 * 1e5 := mul_le_mul hd i1 i0.le (by norm_num)
    have a3 : |X| / h * (|h' - h| * (1 / h')) ≤ 1 * (9e-12 * 1e5) := mul_le_mul a1 a2 (by positivity) (by norm_num)
    linarith
  refine ⟨?_, q A hA⟩
  have h1 : |B / h' - Be / h'| ≤ 0.9e-6 := by
    rw [← sub_div, div_eq_mul_one_div, abs_mul, abs_of_pos i0]
    have := mul_le_mul hB i1 i0.le (by norm_num)
    linarith
  have h2 := q Be hBe
  have h3 : B / h' - Be / h = (B / h' - Be / h') + (Be / h' - Be / h) := by ring
  rw [h3]
  refine (abs_add_le _ _).trans ?_
  linarith

/-- The square root inclination against the exact one. -/
theorem near_incl {A B Be ce κ : ℝ} (hκ0 : 1 - 9e-12 ≤ κ) (hκ1 : κ ≤ 1) (hκ2 : 1 - 8.9e-12 ≤ κ ^ 2) (hB : B = κ * Be)
    (h1 : A ^ 2 + Be ^ 2 + ce ^ 2 = 1) (hce : 0 ≤ ce) :
    |B - Be| ≤ 9e-12 ∧ |sqrt (A ^ 2 + B ^ 2) - sqrt (A ^ 2 + Be ^ 2)| ≤ 9e-12 ∧ sqrt (A ^ 2 + B ^ 2) ≤ 1 ∧
      |sqrt (1 - sqrt (A ^ 2 + B ^ 2) ^ 2) - ce| ≤ 3e-6 := by
  have hBe : |Be| ≤ 1 := abs_le_one_iff_mul_self_le_one.2 (by nlinarith [sq_nonneg A, sq_nonneg ce])
  have hBe2 : Be ^ 2 ≤ 1 := by nlinarith [sq_nonneg A, sq_nonneg ce]
  have b1 : |B - Be| ≤ 9e-12 := by
    rw [hB, show κ * Be - Be = (κ - 1) * Be by ring, abs_mul, abs_of_nonpos (by linarith : κ - 1 ≤ 0)]
    have := mul_le_mul (by linarith : -(κ - 1) ≤ 9e-12) hBe (abs_nonneg _) (by norm_num)
    linarith
  have hBB : B ^ 2 = κ ^ 2 * Be ^ 2 := by rw [hB]; ring
  have hκ3 : κ ^ 2 ≤ 1 := by nlinarith
  have l1 : B ^ 2 ≤ Be ^ 2 := by rw [hBB]; nlinarith [sq_nonneg Be]
  have l2 : Be ^ 2 - 8.9e-12 ≤ B ^ 2 := by rw [hBB]; nlinarith [sq_nonneg Be]
  have hle : A ^ 2 + B ^ 2 ≤ 1 := by nlinarith [sq_nonneg ce]
  refine ⟨b1, ?_, by rw [sqrt_le_one]; exact hle, ?_⟩
  · have m1 : sqrt (A ^ 2 + B ^ 2) ≤ sqrt (A ^ 2 + Be ^ 2) := sqrt_le_sqrt (by linarith)
    have m2 : κ * sqrt (A ^ 2 + Be ^ 2) ≤ sqrt (A ^ 2 + B ^ 2) := by
      apply le_sqrt_of_sq_le
      rw [mul_pow, sq_sqrt (by positivity), hBB]
      nlinarith [sq_nonneg A]
    have m3 : sqrt (A ^ 2 + Be ^ 2) ≤ 1 := by rw [sqrt_le_one]; nlinarith [sq_nonneg ce]
    rw [abs_le]
    constructor
    · nlinarith [sqrt_nonneg (A ^ 2 + Be ^ 2)]
    · linarith
  · rw [sq_sqrt (by positivity)]
    obtain ⟨c, hc⟩ : ∃ c, c = sqrt (1 - (A ^ 2 + B ^ 2)) := ⟨_, rfl⟩
    have c0 : 0 ≤ c := by rw [hc]; exact sqrt_nonneg _
    have c2 : c ^ 2 = 1 - (A ^ 2 + B ^ 2) := by rw [hc]; exact sq_sqrt (by linarith)
    rw [← hc]
    have c3 : ce ≤ c := abs_le_of_sq_le_sq' (by nlinarith) c0 |>.2
    rw [abs_of_nonneg (by linarith)]
    by_contra hcon
    push Not at hcon
    nlinarith

set_option maxHeartbeats 1000000 in
/-- C146, the part that holds.  B1950 to J2000 on the same basis: for orbits inclined less than 89.99° the orbit is turned as a
whole, to 1e-5 (2″), unless the new inclination is below 1e-5.  Orbits inclined more than 90° come out wrong, see
`C146_b1950_violation`. -/
theorem C146_b1950_partial (ν : ℝ) (e : Elements ℝ) (h0 : 0 ≤ e.Inc) (h90 : e.Inc ≤ 89.99 * (π / 180))
    (hs : 1e-5 ≤ sin (reduceB1950Val e).Inc) :
    let r := reduceB1950Val e
    ‖orbitDir r.Inc r.Node (r.Peri + ν) - toJ2000 (orbitDir e.Inc e.Node (e.Peri + ν))‖ ≤ 1e-5 := by
  intro r
  obtain ⟨κ, k1, k2, k3, kc, ks⟩ := ecl1950_polar
  have kp : 0 < κ := by norm_num at k1 ⊢; linarith
  obtain ⟨n, hn⟩ : ∃ n : ℝ, n = e.Node - 174.298782 * (π / 180) := ⟨_, rfl⟩
  obtain ⟨ψ, hψ⟩ : ∃ ψ : ℝ, ψ = 174.997194 * (π / 180) := ⟨_, rfl⟩
  obtain ⟨η, hη⟩ : ∃ η : ℝ, η = ecl1950 := ⟨_, rfl⟩
  obtain ⟨i, hi⟩ : ∃ i : ℝ, i = e.Inc := ⟨_, rfl⟩
  have hr := b1950_eq e
  rw [← hn, ← hψ, ← hi] at hr
  rw [← hη] at kc ks
  obtain ⟨A, hA⟩ : ∃ A : ℝ, A = sin i * sin n := ⟨_, rfl⟩
  obtain ⟨Be, hBe⟩ : ∃ Be : ℝ, Be = cos η * sin i * cos n - sin η * cos i := ⟨_, rfl⟩
  obtain ⟨ce, hce⟩ : ∃ ce : ℝ, ce = cos i * cos η + sin i * sin η * cos n := ⟨_, rfl⟩
  have hB : 0.9999999935 * sin i * cos n - 0.0001139788 * cos i = κ * Be := by rw [← kc, ← ks, hBe]; ring
  have hD : atan2 (-0.0001139788 * sin n) (0.9999999935 * sin i - 0.0001139788 * cos i * cos n) =
      atan2 (-sin η * sin n) (sin i * cos η - cos i * sin η * cos n) := by
    rw [← atan2_scale kp (-sin η * sin n)]
    congr 1
    · rw [← ks]; ring
    · rw [← kc, ← ks]; ring
  have f1 := sin_sq_add_cos_sq i
  have f2 := sin_sq_add_cos_sq n
  have f3 := sin_sq_add_cos_sq η
  have n1 : Be ^ 2 + A ^ 2 + ce ^ 2 = 1 := by rw [hA, hBe, hce]; grind
  have hce0 : 0 ≤ ce := by
    have pi3 := pi_gt_three
    have si0 : 0 ≤ sin i := sin_nonneg_of_nonneg_of_le_pi (by rw [hi]; exact h0) (by rw [hi]; linarith)
    have ci : 0.00017 ≤ cos i := by
      have hx : cos i = sin (π / 2 - i) := (sin_pi_div_two_sub i).symm
      have hy : sin (0.01 * (π / 180)) ≤ sin (π / 2 - i) := by
        apply sin_le_sin_of_le_of_le_pi_div_two
        · linarith
        · rw [hi]; linarith
        · rw [hi]; linarith
      have hz := sin_gt_sub_cube (by positivity : 0 < 0.01 * (π / 180))
      have p4 := pi_lt_d2
      have p5 := pi_gt_d4
      have hcube : (0.01 * (π / 180)) ^ 3 ≤ (0.0002 : ℝ) ^ 3 := pow_le_pow_left₀ (by positivity) (by linarith) 3
      rw [hx]
      norm_num at hcube hz hy p5 ⊢
      linarith
    have ce1 : κ * ce = cos i * 0.9999999935 + sin i * cos n * 0.0001139788 := by rw [← kc, ← ks, hce]; ring
    have t : |sin i * cos n| ≤ 1 := by
      rw [abs_mul]; exact mul_le_one₀ (abs_sin_le_one i) (abs_nonneg _) (abs_cos_le_one n)
    rw [abs_le] at t
    have : 0 ≤ κ * ce := by rw [ce1]; norm_num at ci ⊢; linarith [t.1]
    exact nonneg_of_mul_nonneg_right this kp
  obtain ⟨q1, q2, q3, q4⟩ := near_incl (A := A) k1 k2 k3 (rfl : κ * Be = κ * Be) (by linarith : A ^ 2 + Be ^ 2 + ce ^ 2 = 1) hce0
  rw [hB, hD, ← hA] at hr
  obtain ⟨h', hh'⟩ : ∃ h', h' = sqrt (A ^ 2 + (κ * Be) ^ 2) := ⟨_, rfl⟩
  obtain ⟨h, hh⟩ : ∃ h, h = sqrt (A ^ 2 + Be ^ 2) := ⟨_, rfl⟩
  rw [← hh'] at hr
  rw [← hh'] at q2 q3 q4
  rw [← hh] at q2
  have hsin : sin (arcsin h') = h' := sin_arcsin (by have : 0 ≤ h' := by rw [hh']; exact sqrt_nonneg _
                                                     linarith) q3
  have hr1 : r.Inc = arcsin h' := by simp only [r]; rw [hr]
  have hsi : 1e-5 ≤ h' := by
    have h9 : 1e-5 ≤ sin r.Inc := hs
    rw [hr1, hsin] at h9; exact h9
  have hp : 0 < h := by
    rw [abs_le] at q2; norm_num at hsi q2 ⊢; linarith [q2.2]
  have hsie : sin (arccos ce) = h := by rw [sin_arccos, hh]; congr 1; linarith
  have hcie : cos (arccos ce) = ce := cos_arccos (by linarith) (by exact (abs_le_one_iff_mul_self_le_one.2 (by linarith [sq_nonneg A, sq_nonneg Be, sq ce])) |> (abs_le.1 · |>.2))
  have turn := reduce_turn i n η e.Peri ν (174.298782 * (π / 180)) ψ (by rw [← hce, hsie]; exact hp.ne')
  rw [← hce, ← hA, ← hBe, show n + 174.298782 * (π / 180) = e.Node by rw [hn]; ring] at turn
  have hm : ∀ i Ω u v : ℝ, orbitDir i (mod1 Ω) (mod1 u + v) = orbitDir i Ω (u + v) := by
    intro i Ω u v
    unfold orbitDir rotZ
    rw [cos_add, sin_add, cos_mod1, sin_mod1, cos_mod1, sin_mod1, ← cos_add, ← sin_add]
  have hz : ∀ i Ω u : ℝ, orbitDir i (ψ + Ω) u = rotZ ψ (orbitDir i Ω u) := by
    intro i Ω u
    unfold orbitDir
    rw [rotZ_rotZ]
  have e1 : toJ2000 (orbitDir e.Inc e.Node (e.Peri + ν)) = rotZ ψ (orbitDir (arccos ce) (atan2 A Be)
      (e.Peri + atan2 (-sin η * sin n) (sin i * cos η - cos i * sin η * cos n) + ν)) := by
    rw [← hz, turn, hi, hη, hψ]; rfl
  have e2 : orbitDir r.Inc r.Node (r.Peri + ν) = rotZ ψ (orbitDir (arcsin h') (atan2 A (κ * Be))
      (e.Peri + atan2 (-sin η * sin n) (sin i * cos η - cos i * sin η * cos n) + ν)) := by
    simp only [r]
    rw [hr]
    dsimp only
    rw [hm, hz]
  rw [e1, e2, norm_rotZ_sub]
  refine (orbit_near _ _ _ _ _).trans ?_
  rw [hsin, hsie, hcie, cos_arcsin]
  have hAh : |A| ≤ h := by
    rw [hh]; apply le_sqrt_of_sq_le; rw [sq_abs]; linarith [sq_nonneg Be]
  have hBh : |Be| ≤ h := by
    rw [hh]; apply le_sqrt_of_sq_le; rw [sq_abs]; linarith [sq_nonneg A]
  obtain ⟨w1, w2⟩ := near_node hsi hp q1 q2 hBh hAh
  have hcn : ∀ X g : ℝ, 0 < g → g = sqrt (A ^ 2 + X ^ 2) → cos (atan2 A X) = X / g ∧ sin (atan2 A X) = A / g := by
    intro X g hg hgX
    obtain ⟨p1, p2⟩ := atan2_polar A X
    rw [add_comm (X ^ 2), ← hgX] at p1 p2
    constructor
    · rw [eq_div_iff hg.ne', mul_comm]; exact p1
    · rw [eq_div_iff hg.ne', mul_comm]; exact p2
  obtain ⟨u1, u2⟩ := hcn Be h hp hh
  obtain ⟨u3, u4⟩ := hcn (κ * Be) h' (by linarith) hh'
  rw [u1, u2, u3, u4]
  norm_num at w1 w2 q2 q4 ⊢
  linarith

/-- C146.  `ReduceB1950ToJ2000` is wrong for retrograde orbits: an orbit inclined 135° comes out inclined 45°, and its bodies in
another part of the sky. -/
theorem C146_b1950_violation : ∃ (e : Elements ℝ) (ν : ℝ), e.Inc = 3 * π / 4 ∧
    (reduceB1950Val e).Inc < π / 2 ∧
    1 < ‖orbitDir (reduceB1950Val e).Inc (reduceB1950Val e).Node ((reduceB1950Val e).Peri + ν) - toJ2000 (orbitDir e.Inc e.Node (e.Peri + ν))‖ := by
  have hr := b1950_eq ⟨3 * π / 4, 0, 174.298782 * (π / 180)⟩
  dsimp only at hr
  obtain ⟨s, hs⟩ : ∃ s : ℝ, s = √2 / 2 := ⟨_, rfl⟩
  have s2 : s ^ 2 = 1 / 2 := by rw [hs, div_pow, sq_sqrt (by norm_num)]; norm_num
  have sp : 0 < s := by rw [hs]; positivity
  have hsin : sin (3 * π / 4) = s := by
    rw [show 3 * π / 4 = π - π / 4 by ring, sin_pi_sub, sin_pi_div_four, hs]
  have hcos : cos (3 * π / 4) = -s := by
    rw [show 3 * π / 4 = π - π / 4 by ring, cos_pi_sub, cos_pi_div_four, hs]
  have a0 : ∀ x : ℝ, 0 < x → atan2 0 x = 0 := fun x hx => by
    unfold atan2
    have : (⟨x, 0⟩ : ℂ) = (x : ℂ) := by apply Complex.ext <;> simp
    rw [this, Complex.arg_ofReal_of_nonneg hx.le]
  rw [sub_self, sin_zero, cos_zero, hsin, hcos] at hr
  have hB : (0.9999999935 : ℝ) * s * 1 - 0.0001139788 * -s = 1.0001139723 * s := by ring
  have hD : (0.9999999935 : ℝ) * s - 0.0001139788 * -s * 1 = 1.0001139723 * s := by ring
  have hq : sqrt (0 ^ 2 + (1.0001139723 * s) ^ 2) = 1.0001139723 * s := by
    rw [zero_pow (by norm_num), zero_add, sqrt_sq (by positivity)]
  rw [hB, hD, mul_zero, mul_zero, hq, a0 _ (by positivity), add_zero, add_zero] at hr
  obtain ⟨κ, k1, k2, k3, kc, ks⟩ := ecl1950_polar
  obtain ⟨g, hg⟩ : ∃ g : ℝ, g = 1.0001139723 * s := ⟨_, rfl⟩
  rw [← hg] at hr
  have g2 : g ^ 2 ≤ 0.51 := by rw [hg, mul_pow, s2]; norm_num
  have gp : 0 < g := by rw [hg]; positivity
  have g1 : g < 1 := by nlinarith
  have s7 : 0.7 ≤ s := by nlinarith
  refine ⟨⟨3 * π / 4, 0, 174.298782 * (π / 180)⟩, π / 2, rfl, ?_, ?_⟩
  · rw [hr]
    exact (arcsin_lt_pi_div_two).2 g1
  · have hm : ∀ i Ω u v : ℝ, orbitDir i (mod1 Ω) (mod1 u + v) = rotZ Ω (rotX i !₂[cos (u + v), sin (u + v), 0]) := by
      intro i Ω u v
      unfold orbitDir rotZ
      rw [cos_add, sin_add, cos_mod1, sin_mod1, cos_mod1, sin_mod1, ← cos_add, ← sin_add]
    rw [hr]
    dsimp only
    unfold toJ2000
    rw [hm, norm_rotZ_sub]
    unfold orbitDir
    rw [rotZ_rotZ, neg_add_cancel, zero_add, cos_pi_div_two, sin_pi_div_two, rotX_vec, rotX_vec, hsin, hcos, rotZ_vec, rotX_vec, cos_arcsin,
      sin_arcsin (by linarith) g1.le, sub_eq_add_neg, neg_vec, add_vec, norm_vec, cos_zero, sin_zero, cos_neg, sin_neg]
    obtain ⟨c, hc⟩ : ∃ c : ℝ, c = cos ecl1950 := ⟨_, rfl⟩
    obtain ⟨d, hd⟩ : ∃ d : ℝ, d = sin ecl1950 := ⟨_, rfl⟩
    rw [← hc] at kc ⊢
    rw [← hd] at ks ⊢
    have k9 : (0.9999999 : ℝ) ≤ κ := by norm_num at k1 ⊢; linarith
    have c9 : 0.9 ≤ c := by
      by_contra h; push Not at h; norm_num at kc h; nlinarith
    have d9 : d ≤ 0.01 := by
      by_contra h; push Not at h; norm_num at ks h k9; nlinarith
    have r7 : 0.6 ≤ sqrt (1 - g ^ 2) := by
      apply le_sqrt_of_sq_le; norm_num at g2 ⊢; linarith
    obtain ⟨y, hy⟩ : ∃ y : ℝ, y = sqrt (1 - g ^ 2) := ⟨_, rfl⟩
    rw [← hy] at r7 ⊢
    apply lt_sqrt_of_sq_lt
    have hk : 1 < y + s * (c - d) := by nlinarith
    nlinarith [sq_nonneg (s * (c + d) - g)]

/-- C146.  The angles of `ReduceB1950ToJ2000` are those of package precess for B1950.0 (= 1949.9997903) and 2000. -/
theorem C146_angles :
    let a := eclAngles (1949.9997903 : ℝ) 2000
    |ecl1950 - a.1| ≤ 1e-9 ∧ |174.298782 * (π / 180) - a.2.1| ≤ 1e-8 ∧ |174.997194 * (π / 180) - (a.2.1 + a.2.2)| ≤ 1e-8 := by
  intro a
  have p1 := pi_gt_d20
  have p2 := pi_lt_d20
  obtain ⟨κ, k1, k2, k3, kc, ks⟩ := ecl1950_polar
  have hup : ecl1950 ≤ 0.0001139788 / 0.9999999935 := by
    have h1 := lt_tan (arctan_pos.2 (by norm_num : (0 : ℝ) < 0.0001139788 / 0.9999999935)) (arctan_lt_pi_div_two _)
    rw [tan_arctan] at h1
    exact h1.le
  have h0 : 0 < ecl1950 := arctan_pos.2 (by norm_num)
  have hlo : 0.0001139788 ≤ ecl1950 := by
    have := sin_lt h0
    nlinarith
  have ha : a = _ := C83_angles 1949.9997903 2000
  rw [ha]
  dsimp only
  norm_num at hup hlo p1 p2
  refine ⟨?_, ?_, ?_⟩
  · rw [abs_le]; norm_num; constructor <;> linarith
  · rw [abs_le]; norm_num; constructor <;> linarith
  · rw [abs_le]; norm_num; constructor <;> linarith

/-- An orbit meeting the hypothesis of `C146_fk4_rotation`. -/
example : sin (reduceFK4Val (⟨π / 2, 1, π / 2 - 5.19856209 * (π / 180)⟩ : Elements ℝ)).Inc ≠ 0 := by
  simp only [reduceFK4Val, Precess.deg, lit_real, sin_real, cos_real, acos_real, atan2_real, mod1_real, pi_real]
  have : ((5.19856209 : ℚ) : ℝ) * (π / ((180 : ℚ) : ℝ)) + (π / 2 - 5.19856209 * (π / 180)) = π / 2 := by norm_num
  rw [this]
  simp

/-- An orbit, inclined 45°, meeting the hypotheses of `C146_b1950_partial`. -/
example : let e : Elements ℝ := ⟨π / 4, 1, 174.298782 * (π / 180)⟩
    0 ≤ e.Inc ∧ e.Inc ≤ 89.99 * (π / 180) ∧ 1e-5 ≤ sin (reduceB1950Val e).Inc := by
  intro e
  have pp := pi_pos
  refine ⟨by positivity, by simp only [e]; linarith, ?_⟩
  have hr := b1950_eq e
  simp only [e] at hr ⊢
  rw [hr]
  simp only [sub_self, sin_zero, cos_zero, sin_pi_div_four, cos_pi_div_four, mul_zero, mul_one]
  have h2 : √2 ^ 2 = 2 := sq_sqrt (by norm_num)
  have h3 : 0 < √2 := by positivity
  have h4 : √2 ≤ 1.5 := by rw [sqrt_le_left (by norm_num)]; norm_num
  have hq : sqrt (0 ^ 2 + (0.9999999935 * (√2 / 2) - 0.0001139788 * (√2 / 2)) ^ 2) = 0.9998860147 / 2 * √2 := by
    rw [zero_pow (by norm_num), zero_add, sqrt_eq_iff_mul_self_eq_of_pos (by positivity)]; ring
  rw [hq, sin_arcsin (by nlinarith) (by norm_num at h4 ⊢; nlinarith)]
  norm_num
  nlinarith

end Verif.Props
