import Verif.Model.SaturnMoons
import Verif.Lemmas.Sky
import Verif.Props.Precess
import Verif.Props.Nutation
import Mathlib.Tactic
/-
C148: the satellites of Saturn as seen from the Earth (package saturnmoons).
-/
namespace Verif.Props.SatMoons

open Real Verif.Go Verif.Spec Verif.Lemmas Verif.Model Verif.Model.SatMoons

/-- The direction of a satellite with elements (γ, Ω, λ) referred to the plane of the ring, whose node on the ecliptic of B1950.0 is at
longitude N and whose inclination is J: expressed in the ecliptic of B1950.0. -/
noncomputable def onRing (N J γ Ω lam : ℝ) : V3 := rotZ N (rotX J (orbitDir γ (Ω - N) (lam - Ω)))

/-- The pole of a plane with that node and inclination. -/
noncomputable def poleOf (N J : ℝ) : V3 := rotZ N (rotX J !₂[0, 0, 1])

theorem rotX_rotX_neg (a : ℝ) (v : V3) : rotX a (rotX (-a) v) = v := by
  conv_rhs => rw [vec_self v]
  unfold rotX
  have e := sin_sq_add_cos_sq a
  apply vec_eq
  · simp
  · simp only [cos_neg, sin_neg, Matrix.cons_val_one, Matrix.cons_val_zero, Matrix.cons_val]
    linear_combination (v 1) * e
  · simp only [cos_neg, sin_neg, Matrix.cons_val_one, Matrix.cons_val_zero, Matrix.cons_val]
    linear_combination (v 2) * e

theorem rotZ_orbitDir (a i n u : ℝ) : rotZ a (orbitDir i n u) = orbitDir i (n + a) u := by
  unfold orbitDir
  rw [rotX_vec, rotZ_vec, rotZ_vec, rotZ_vec, cos_add, sin_add]
  apply vec_eq <;> ring

theorem two_sq_zero {a b c : ℝ} (h : a ^ 2 + b ^ 2 + c = 1) (hc : 1 - c = 0) : a = 0 ∧ b = 0 := by
  have h1 := sq_nonneg a
  have h2 := sq_nonneg b
  exact ⟨pow_eq_zero_iff two_ne_zero |>.1 (by linarith), pow_eq_zero_iff two_ne_zero |>.1 (by linarith)⟩

theorem deg_pos' : 0 < deg := by unfold deg; positivity

theorem inc0_range : 0 < inc0 ∧ inc0 < π / 2 := by
  unfold inc0 deg
  constructor <;> linarith [pi_pos]

set_option maxHeartbeats 1000000 in
/-- C148.  `subr`: the elements referred to the plane of the ring describe the same direction in space as the elements referred to the
ecliptic — inclination i, node Ω and argument λ′ + C − Ω, C the equation of the centre — whenever the orbit is inclined to the ecliptic
and by less than 90° to the ring. -/
theorem C148_elements (lam' p e a Ω i : ℝ) (hi : 0 < sin i)
    (ht : 0 < cos i * cos inc0 + sin i * sin inc0 * cos (Ω - node0)) :
    let q := subr lam' p e a Ω i
    onRing node0 inc0 q.γ q.Ω q.lam = orbitDir i Ω (lam' + centre e (lam' - p) - Ω) ∧ 0 ≤ q.γ ∧ q.γ < π / 2 := by
  intro q
  obtain ⟨x, hx⟩ : ∃ x, x = lam' + centre e (lam' - p) - Ω := ⟨_, rfl⟩
  obtain ⟨g, hg⟩ : ∃ g, g = Ω - node0 := ⟨_, rfl⟩
  obtain ⟨a1, ha1⟩ : ∃ a1, a1 = sin i * sin g := ⟨_, rfl⟩
  obtain ⟨a2, ha2⟩ : ∃ a2, a2 = cos inc0 * sin i * cos g - sin inc0 * cos i := ⟨_, rfl⟩
  obtain ⟨h, hh⟩ : ∃ h, h = cos inc0 * sin i - sin inc0 * cos i * cos g := ⟨_, rfl⟩
  obtain ⟨b, hb⟩ : ∃ b, b = sin inc0 * sin g := ⟨_, rfl⟩
  have qγ : q.γ = arcsin (Angle.hypot a1 a2) := by rw [ha1, ha2, hg]; rfl
  have qΩ : q.Ω - node0 = atan2 a1 a2 := by rw [ha1, ha2, hg]; show node0 + _ - node0 = _; ring
  have qu : q.lam - q.Ω = x + -atan2 b h := by
    rw [hx, hb, hh, hg]
    show lam' + centre e (lam' - p) + _ - (Ω - node0) - _ - (node0 + _) = _
    ring
  rw [← hg] at ht
  have f1 := sin_sq_add_cos_sq i
  have f2 := sin_sq_add_cos_sq g
  have f3 := sin_sq_add_cos_sq inc0
  have n1 : a1 ^ 2 + a2 ^ 2 + (cos i * cos inc0 + sin i * sin inc0 * cos g) ^ 2 = 1 := by
    rw [ha1, ha2]; clear * - f1 f2 f3; grind
  have n2 : b ^ 2 + h ^ 2 + (cos i * cos inc0 + sin i * sin inc0 * cos g) ^ 2 = 1 := by
    rw [hb, hh]; clear * - f1 f2 f3; grind
  obtain ⟨cc, hcc⟩ : ∃ cc, cc = cos i * cos inc0 + sin i * sin inc0 * cos g := ⟨_, rfl⟩
  rw [← hcc] at ht n1 n2
  have hy : Angle.hypot a1 a2 = sqrt (1 - cc ^ 2) := by unfold Angle.hypot; congr 1; linarith
  have hyb : sqrt (h ^ 2 + b ^ 2) = sqrt (1 - cc ^ 2) := by congr 1; linarith
  have hya : sqrt (a2 ^ 2 + a1 ^ 2) = sqrt (1 - cc ^ 2) := by congr 1; linarith
  have c1 : cc ^ 2 ≤ 1 := by nlinarith [sq_nonneg a1, sq_nonneg a2]
  have hlt : sqrt (1 - cc ^ 2) < 1 := by
    rw [sqrt_lt' one_pos]; nlinarith
  have h0 := sqrt_nonneg (1 - cc ^ 2)
  have sγ : sin q.γ = sqrt (1 - cc ^ 2) := by rw [qγ, hy, sin_arcsin (by linarith) hlt.le]
  have cγ : cos q.γ = cc := by
    rw [qγ, hy, cos_arcsin, sq_sqrt (by linarith)]
    rw [show 1 - (1 - cc ^ 2) = cc ^ 2 by ring, sqrt_sq ht.le]
  refine ⟨?_, ?_, ?_⟩
  · unfold onRing
    have key : orbitDir q.γ (q.Ω - node0) (q.lam - q.Ω) = rotX (-inc0) (orbitDir i g x) := by
      rw [qΩ, qu]
      by_cases hz : sin q.γ = 0
      · -- the planes coincide
        have z : 1 - cc ^ 2 = 0 := by
          rw [sγ] at hz
          have := sq_sqrt (show 0 ≤ 1 - cc ^ 2 by linarith)
          rw [hz] at this; linarith
        obtain ⟨z1, z2⟩ := two_sq_zero n1 z
        obtain ⟨z3, z4⟩ := two_sq_zero n2 z
        have sg : sin g = 0 := by
          rw [z1] at ha1
          rcases mul_eq_zero.1 ha1.symm with k | k
          · exact absurd k hi.ne'
          · exact k
        have cc1 : cc = 1 := by
          have : (cc - 1) * (cc + 1) = 0 := by linarith
          rcases mul_eq_zero.1 this with k | k <;> linarith
        have si0 : 0 < sin inc0 := sin_pos_of_pos_of_lt_pi inc0_range.1 (by linarith [inc0_range.2, pi_pos])
        have cg : cos g = 1 := by
          have : cos g * cos g = 1 := by rw [sg] at f2; linarith
          rcases mul_self_eq_one_iff.1 this with k | k
          · exact k
          · exfalso
            rw [k] at hcc ha2
            have e1 : sin (i + inc0) = 0 := by rw [sin_add]; linarith
            have e2 : cos (i + inc0) = 1 := by rw [cos_add]; linarith
            have e3 : sin i = sin (i + inc0) * cos inc0 - cos (i + inc0) * sin inc0 := by
              rw [← sin_sub]; congr 1; ring
            rw [e1, e2] at e3
            linarith
        rw [cg] at hcc ha2
        have e1 : sin (i - inc0) = 0 := by rw [sin_sub]; linarith
        have e2 : cos (i - inc0) = 1 := by rw [cos_sub]; linarith
        have e3 : sin i = sin inc0 := by
          have : sin i = sin (i - inc0) * cos inc0 + cos (i - inc0) * sin inc0 := by rw [← sin_add]; congr 1; ring
          rw [this, e1, e2]; ring
        have e4 : cos i = cos inc0 := by
          have : cos i = cos (i - inc0) * cos inc0 - sin (i - inc0) * sin inc0 := by rw [← cos_add]; congr 1; ring
          rw [this, e1, e2]; ring
        have at0 : atan2 0 0 = 0 := Complex.arg_zero
        rw [z1, z2, z3, z4, at0]
        unfold orbitDir
        rw [rotX_vec, rotX_vec, rotZ_vec, rotZ_vec, rotX_vec, cγ, hz, cc1, sg, cg, e3, e4]
        simp only [cos_zero, sin_zero, neg_zero, add_zero, cos_neg, sin_neg]
        apply vec_eq
        · ring
        · linear_combination (-sin x) * f3
        · ring
      · refine orbit_turn x hz ?_ ?_ ?_ ?_ ?_
        · rw [cγ, hcc]
        · rw [sγ, ← hya, (atan2_polar a1 a2).1, ha2]
        · rw [sγ, ← hya, (atan2_polar a1 a2).2, ha1]
        · rw [cos_neg, sγ, ← hyb, (atan2_polar b h).1, hh]; ring
        · rw [sin_neg, sγ, ← hyb, mul_neg, (atan2_polar b h).2, hb]; ring
    rw [key, rotX_rotX_neg, rotZ_orbitDir, ← hx]
    congr 1
    rw [hg]; ring
  · rw [qγ]; exact arcsin_nonneg.2 (by rw [hy]; exact h0)
  · rw [qγ, hy]
    exact (arcsin_lt_pi_div_two).2 hlt


/-- The position of a satellite in the ecliptic of B1950.0, in radii of Saturn. -/
noncomputable def place (q : R4) : V3 := q.r • onRing node0 inc0 q.γ q.Ω q.lam

theorem ringXYZ_vec (q : R4) :
    (!₂[(ringXYZ q).1, (ringXYZ q).2.1, (ringXYZ q).2.2] : V3) = q.r • orbitDir q.γ (q.Ω - node0) (q.lam - q.Ω) := by
  unfold orbitDir ringXYZ
  rw [rotX_vec, rotZ_vec, smul_vec]
  apply vec_eq <;> ring

/-- A, B, C are the components of the point westward, away from the Earth and northward. -/
theorem ABC_eq (lam0 β0 x y z : ℝ) :
    let P := rotZ node0 (rotX inc0 !₂[x, y, z])
    (ABC lam0 β0 (x, y, z)).1 = -inner ℝ (east lam0) P ∧
    (ABC lam0 β0 (x, y, z)).2.1 = inner ℝ (dir lam0 β0) P ∧
    (ABC lam0 β0 (x, y, z)).2.2 = inner ℝ (north lam0 β0) P := by
  intro P
  have hP : P = rotZ node0 (rotX inc0 !₂[x, y, z]) := rfl
  rw [hP, rotX_vec, rotZ_vec]
  unfold ABC dir east north
  rw [inner_vec, inner_vec, inner_vec]
  dsimp only
  refine ⟨?_, ?_, ?_⟩ <;> ring

theorem rot_smul (a b c : ℝ) (v : V3) : rotZ a (rotX b (c • v)) = c • rotZ a (rotX b v) := by
  rw [vec_self v, smul_vec, rotX_vec, rotX_vec, rotZ_vec, rotZ_vec, smul_vec]
  apply vec_eq <;> ring

/-- C148.  The rectangular coordinates, before the corrections for light time and perspective, of every satellite, for every line of sight
(λ0, β0): with P the position in space, s the direction of the line of sight and N the pole of the ring, Z is the component of P along s, Y the
component along the projection of N on the sky, X the component along s × N; X, Y, Z are the coordinates of P in an orthogonal system. -/
theorem C148_seen (lam0 β0 : ℝ) (q : R4) :
    let P := place q
    let s := dir lam0 β0
    let N := poleOf node0 inc0
    let v := seen lam0 β0 q
    ‖perp s N‖ * v.1 = inner ℝ (cross s N) P ∧ ‖perp s N‖ * v.2.1 = inner ℝ (perp s N) P ∧ v.2.2 = inner ℝ s P ∧
    v.1 ^ 2 + v.2.1 ^ 2 + v.2.2 ^ 2 = q.r ^ 2 := by
  intro P s N v
  have hx := ringXYZ_vec q
  obtain ⟨x, y, z, hr⟩ : ∃ x y z, ringXYZ q = (x, y, z) := ⟨_, _, _, rfl⟩
  rw [hr] at hx
  dsimp only at hx
  have hP : P = rotZ node0 (rotX inc0 !₂[x, y, z]) := by
    rw [hx, rot_smul]; rfl
  obtain ⟨a1, a2, a3⟩ := ABC_eq lam0 β0 x y z
  rw [← hP] at a1 a2 a3
  obtain ⟨n1, n2, n3⟩ := ABC_eq lam0 β0 0 0 1
  have hv : v = ((ABC lam0 β0 (x, y, z)).1 * cos (posD lam0 β0) - (ABC lam0 β0 (x, y, z)).2.2 * sin (posD lam0 β0),
      (ABC lam0 β0 (x, y, z)).1 * sin (posD lam0 β0) + (ABC lam0 β0 (x, y, z)).2.2 * cos (posD lam0 β0), (ABC lam0 β0 (x, y, z)).2.1) := by
    show seen lam0 β0 q = _
    unfold seen
    dsimp only
    rw [hr]
  have hq : inner ℝ P P = q.r ^ 2 := by
    show inner ℝ (place q) (place q) = _
    unfold place onRing
    rw [inner_smul_left, inner_smul_right, inner_rotZ, inner_rotX]
    unfold orbitDir
    rw [inner_rotZ, inner_rotX, inner_vec]
    simp only [conj_trivial]
    linear_combination (q.r ^ 2) * sin_sq_add_cos_sq (q.lam - q.Ω)
  rw [hv, ← hq]
  exact sky_frame lam0 β0 N P n1 n3 a1 a2 a3

/-- C148.  The corrections: the number under the root is not negative; the result is the position (X, Y) seen in perspective at the distance
Δ (one astronomical unit taken as 2475 radii of Saturn), X first displaced by at most |Z|/k. -/
theorem C148_corrected (lam0 β0 : ℝ) (q : R4) {Δ k : ℝ} (hk : 0 < k) (hr : 0 < q.r) (hΔ : q.r < 2475 * Δ) :
    let v := seen lam0 β0 q
    let p := corrected Δ k q.r v
    0 ≤ 1 - v.1 / q.r * (v.1 / q.r) ∧ 0 < 2475 * Δ + v.2.2 ∧
    p.2 = 2475 * Δ * v.2.1 / (2475 * Δ + v.2.2) ∧
    ∃ δ, 0 ≤ δ ∧ δ ≤ |v.2.2| / k ∧ p.1 = 2475 * Δ * (v.1 + δ) / (2475 * Δ + v.2.2) := by
  intro v p
  obtain ⟨-, -, -, hn⟩ := C148_seen lam0 β0 q
  exact sky_corrected hn hk hr (by norm_num) hΔ

theorem smul_rot3 (a b c k : ℝ) (v : V3) : rotZ a (rotX b (rotZ c (k • v))) = k • rotZ a (rotX b (rotZ c v)) := by
  rw [vec_self v, smul_vec, rotZ_vec, rotZ_vec, rotX_vec, rotX_vec, rotZ_vec, rotZ_vec, smul_vec]
  apply vec_eq <;> ring

/-- C148.  The line of sight: the direction of (x, y, z), Saturn less the Earth, carried from the ecliptic and equinox of the date to those of
B1950.0 by the rotation of C83. -/
theorem C148_sight (v : ℝ × ℝ × ℝ) (jde : ℝ) (hv : 0 < v.1 ^ 2 + v.2.1 ^ 2) :
    let a := Precess.eclAngles (JDEToJulianYear jde) (JDEToJulianYear 2433282.4235)
    let s := sight v jde
    len v • dir s.Lon s.Lat = rotZ (a.2.1 + a.2.2) (rotX (-a.1) (rotZ (-a.2.1) !₂[v.1, v.2.1, v.2.2])) := by
  intro a s
  have hs : s = Precess.eclPrecessVal (Precess.NewEclipticPrecessor (JDEToJulianYear jde) (JDEToJulianYear 2433282.4235))
      ⟨atan2 v.2.1 v.1, arctan (v.2.2 / Angle.hypot v.1 v.2.1)⟩ := by
    simp only [s, sight, Precess.eclipticPositionVal, eq_real, lit_real, Rat.cast_zero, not_true_eq_false, or_self, if_false]
  have h := C83_ecliptic_rotation (JDEToJulianYear jde) (JDEToJulianYear 2433282.4235) (atan2 v.2.1 v.1)
    (arctan (v.2.2 / Angle.hypot v.1 v.2.1))
  dsimp only at h
  have hne : v.1 ≠ 0 ∨ v.2.1 ≠ 0 := by
    by_contra hc
    push Not at hc
    rw [hc.1, hc.2] at hv
    norm_num at hv
  have hd := dir_arctan v.2.2 hne
  rw [hs, h, ← hd]
  rw [smul_rot3]
  rfl

/-- C148.  The plane used here is that of package saturnring: at B1950.0 inclination and node agree within 0.0001°. -/
theorem C148_ring_plane : |PlanetPhys.Ring.inc 2433282.4235 - inc0| ≤ 0.0001 * deg ∧ |PlanetPhys.Ring.node 2433282.4235 - node0| ≤ 0.0001 * deg := by
  unfold PlanetPhys.Ring.inc PlanetPhys.Ring.node inc0 node0 J2000Century deg
  simp only [hornerR, List.foldr]
  have hp := pi_pos
  constructor <;> (rw [abs_le]; constructor <;> nlinarith)

/-! ### The orbits -/

theorem orbit_radius {a e c : ℝ} (ha : 0 < a) (he : 0 ≤ e) (he1 : e < 1) (hc : |c| ≤ 1) :
    a * (1 - e) ≤ a * (1 - e * e) / (1 + e * c) ∧ a * (1 - e * e) / (1 + e * c) ≤ a * (1 + e) := by
  obtain ⟨c1, c2⟩ := abs_le.1 hc
  have h1 : 1 - e ≤ 1 + e * c := by nlinarith
  have h2 : 1 + e * c ≤ 1 + e := by nlinarith
  have h3 : 0 < 1 + e * c := by linarith
  rw [le_div_iff₀ h3, div_le_iff₀ h3]
  have k : 0 ≤ a * (1 - e) := mul_nonneg ha.le (by linarith)
  have k' : 0 ≤ a * (1 + e) := mul_nonneg ha.le (by linarith)
  constructor
  · calc a * (1 - e) * (1 + e * c) ≤ a * (1 - e) * (1 + e) := mul_le_mul_of_nonneg_left h2 k
      _ = a * (1 - e * e) := by ring
  · calc a * (1 - e * e) = a * (1 + e) * (1 - e) := by ring
      _ ≤ a * (1 + e) * (1 + e * c) := mul_le_mul_of_nonneg_left h1 k'

theorem quot_radius {a e c : ℝ} (ha : 0 < a) (he : 0 ≤ e) (he1 : e < 1) (hc : |c| ≤ 1) :
    a / (1 + e) ≤ a / (1 + e * c) ∧ a / (1 + e * c) ≤ a / (1 - e) := by
  obtain ⟨c1, c2⟩ := abs_le.1 hc
  have h1 : 1 - e ≤ 1 + e * c := by nlinarith
  have h2 : 1 + e * c ≤ 1 + e := by nlinarith
  exact ⟨div_le_div_of_nonneg_left ha.le (by linarith) h2, div_le_div_of_nonneg_left ha.le (by linarith) h1⟩

/-- The elements used are those of an orbit inclined to the ecliptic, and by less than 90° to the ring. -/
def Tame (q : El) : Prop := 0 < sin q.i ∧ 0 < cos q.i * cos inc0 + sin q.i * sin inc0 * cos (q.Ω - node0)

theorem tame_of {q : El} (h1 : 5 * deg < q.i) (h2 : q.i < 80 * deg) (h3 : |q.Ω - node0| ≤ 80 * deg) : Tame q := by
  have hp := pi_pos
  unfold deg at *
  have i1 := inc0_range.1
  have i2 := inc0_range.2
  have s1 : 0 < sin q.i := sin_pos_of_pos_of_lt_pi (by linarith) (by linarith)
  have s2 : 0 < sin inc0 := sin_pos_of_pos_of_lt_pi i1 (by linarith)
  have k1 : 0 < cos q.i := cos_pos_of_mem_Ioo ⟨by linarith, by linarith⟩
  have k2 : 0 < cos inc0 := cos_pos_of_mem_Ioo ⟨by linarith, by linarith⟩
  obtain ⟨g1, g2⟩ := abs_le.1 h3
  have k3 : 0 < cos (q.Ω - node0) := cos_pos_of_mem_Ioo ⟨by linarith, by linarith⟩
  exact ⟨s1, by positivity⟩

/-- A term c·sin x or c·cos x with 0 ≤ c is between −c and c. -/
theorem tm {c x : ℝ} (hc : 0 ≤ c) (hx : |x| ≤ 1) : -c ≤ c * x ∧ c * x ≤ c := by
  obtain ⟨h1, h2⟩ := abs_le.1 hx
  constructor <;> nlinarith

theorem tmd {c x : ℝ} (hc : 0 ≤ c) (hx : |x| ≤ 1) : -c * deg ≤ c * deg * x ∧ c * deg * x ≤ c * deg := by
  have := tm (mul_nonneg hc deg_pos'.le) hx
  constructor <;> linarith

theorem rhea_bounds (J : ℝ) : Tame (rheaEl J) ∧ 0 ≤ (rheaEl J).e ∧ (rheaEl J).e ≤ 0.0013 := by
  refine ⟨tame_of ?_ ?_ ?_, ?_, ?_⟩
  · simp only [rheaEl]
    have h1 := tmd (show (0 : ℝ) ≤ 0.346898 by norm_num) (abs_cos_le_one (345 * deg - 10.057 * deg * t2 J))
    have h2 := tmd (show (0 : ℝ) ≤ 0.0193 by norm_num) (abs_cos_le_one (W3 J))
    linarith [deg_pos']
  · simp only [rheaEl]
    have h1 := tmd (show (0 : ℝ) ≤ 0.346898 by norm_num) (abs_cos_le_one (345 * deg - 10.057 * deg * t2 J))
    have h2 := tmd (show (0 : ℝ) ≤ 0.0193 by norm_num) (abs_cos_le_one (W3 J))
    linarith [deg_pos']
  · simp only [rheaEl, node0]
    have h1 := tmd (show (0 : ℝ) ≤ 0.736936 by norm_num) (abs_sin_le_one (345 * deg - 10.057 * deg * t2 J))
    have h2 := tmd (show (0 : ℝ) ≤ 0.041 by norm_num) (abs_sin_le_one (W3 J))
    rw [abs_le]
    constructor <;> linarith [deg_pos']
  · exact sqrt_nonneg _
  · simp only [rheaEl, Angle.hypot]
    rw [sqrt_le_left (by norm_num)]
    have h3 := sin_sq_add_cos_sq (342.7 * deg + 10.057 * deg * t2 J)
    have h4 := sin_sq_add_cos_sq (W4 J)
    have h5 : sin (342.7 * deg + 10.057 * deg * t2 J) * sin (W4 J) + cos (342.7 * deg + 10.057 * deg * t2 J) * cos (W4 J) ≤ 1 := by
      have := cos_le_one (342.7 * deg + 10.057 * deg * t2 J - W4 J)
      rw [cos_sub] at this; linarith
    nlinarith

theorem hyperion_bounds (J : ℝ) : Tame (hyperionEl J) ∧ 0.0735 ≤ (hyperionEl J).e ∧ (hyperionEl J).e ≤ 0.1334 ∧
    24.415 ≤ (hyperionEl J).a ∧ (hyperionEl J).a ≤ 24.597 := by
  have D := deg_pos'
  unfold hyperionEl
  dsimp only
  generalize 92.39 * deg + 0.5621071 * deg * t6 J = η
  generalize 148.19 * deg - 19.18 * deg * t8 J = ζ
  generalize 184.8 * deg - 35.41 * deg * t9 J = θ
  generalize 8 * deg + 24.44 * deg * t8 J + 5 * deg = cs
  generalize 2 * (69.898 * deg - 18.67088 * deg * t8 J - W5 J) = φ
  generalize 94.9 * deg - 2.292 * deg * t8 J = χ
  refine ⟨tame_of ?_ ?_ ?_, ?_, ?_, ?_, ?_⟩
  · have h1 := tmd (show (0 : ℝ) ≤ 0.6434886 by norm_num) (abs_cos_le_one χ)
    have h2 := tmd (show (0 : ℝ) ≤ 0.315 by norm_num) (abs_cos_le_one (W3 J))
    have h3 := tmd (show (0 : ℝ) ≤ 0.018 by norm_num) (abs_cos_le_one θ)
    have h4 := tmd (show (0 : ℝ) ≤ 0.018 by norm_num) (abs_cos_le_one cs)
    linarith
  · have h1 := tmd (show (0 : ℝ) ≤ 0.6434886 by norm_num) (abs_cos_le_one χ)
    have h2 := tmd (show (0 : ℝ) ≤ 0.315 by norm_num) (abs_cos_le_one (W3 J))
    have h3 := tmd (show (0 : ℝ) ≤ 0.018 by norm_num) (abs_cos_le_one θ)
    have h4 := tmd (show (0 : ℝ) ≤ 0.018 by norm_num) (abs_cos_le_one cs)
    linarith
  · unfold node0
    have h1 := tmd (show (0 : ℝ) ≤ 1.40136 by norm_num) (abs_cos_le_one χ)
    have h2 := tmd (show (0 : ℝ) ≤ 0.68599 by norm_num) (abs_sin_le_one (W3 J))
    have h3 := tmd (show (0 : ℝ) ≤ 0.0366 by norm_num) (abs_sin_le_one (θ - 7.5 * deg))
    have h4 := tmd (show (0 : ℝ) ≤ 0.0392 by norm_num) (abs_sin_le_one cs)
    rw [abs_le]
    constructor <;> linarith
  · linarith [neg_one_le_cos η, neg_one_le_cos (ζ + η), neg_one_le_cos (ζ - η), neg_one_le_cos ζ, neg_one_le_cos (2 * ζ), neg_one_le_cos (3 * ζ), neg_one_le_cos φ, cos_le_one η, cos_le_one (ζ + η), cos_le_one (2 * ζ)]
  · linarith [neg_one_le_cos η, neg_one_le_cos (ζ + η), neg_one_le_cos (2 * ζ), cos_le_one (ζ - η), cos_le_one ζ, cos_le_one (3 * ζ), cos_le_one φ]
  · linarith [cos_le_one η, cos_le_one (ζ + η), neg_one_le_cos (ζ - η)]
  · linarith [neg_one_le_cos η, neg_one_le_cos (ζ + η), cos_le_one (ζ - η)]

theorem hypot_le_one {a b c : ℝ} (h : a ^ 2 + b ^ 2 + c ^ 2 = 1) : 0 ≤ Angle.hypot a b ∧ Angle.hypot a b ≤ 1 := by
  unfold Angle.hypot
  refine ⟨sqrt_nonneg _, ?_⟩
  rw [sqrt_le_left (by norm_num)]
  nlinarith [sq_nonneg c]

theorem sin_lower {x lo : ℝ} (h1 : lo ≤ x) (h0 : 0 ≤ lo) (h2 : x ≤ π / 2) : 2 / π * lo ≤ sin x := by
  have := mul_le_sin (h0.trans h1) h2
  have hp : 0 ≤ 2 / π := by positivity
  exact (mul_le_mul_of_nonneg_left h1 hp).trans this

theorem two_deg (x : ℝ) : 2 / π * (x * deg) = x / 90 := by
  unfold deg
  have := pi_pos.ne'
  field_simp
  ring

theorem titan_e {x y c : ℝ} (hx : |x| ≤ 1) (hy : |y| ≤ 1) (hc : |c| ≤ 1) :
    0.0286 ≤ 0.029092 + 0.00019048 * (x - y) + 0.002778797 * (0.029092 + 0.00019048 * (x - y)) * c ∧
    0.029092 + 0.00019048 * (x - y) + 0.002778797 * (0.029092 + 0.00019048 * (x - y)) * c ≤ 0.02956 := by
  obtain ⟨x1, x2⟩ := abs_le.1 hx
  obtain ⟨y1, y2⟩ := abs_le.1 hy
  obtain ⟨e, he⟩ : ∃ e, e = 0.029092 + 0.00019048 * (x - y) := ⟨_, rfl⟩
  rw [← he]
  have h1 : 0.02871 ≤ e := by linarith
  have h2 : e ≤ 0.029474 := by linarith
  obtain ⟨a, b⟩ := tm (show 0 ≤ 0.002778797 * e by linarith) hc
  constructor <;> linarith

theorem iapetus_e {t a b c d e f : ℝ} (ht : |t| ≤ 5) (ha : |a| ≤ 1) (hb : |b| ≤ 1) (hc : |c| ≤ 1) (hd : |d| ≤ 1) (he : |e| ≤ 1) (hf : |f| ≤ 1) :
    0.019 ≤ 0.028298 + 0.001156 * t - 0.0014097 * a + 0.0003733 * b + 0.000118 * c + 0.0002408 * d + 0.0002849 * e + 0.000619 * f ∧
    0.028298 + 0.001156 * t - 0.0014097 * a + 0.0003733 * b + 0.000118 * c + 0.0002408 * d + 0.0002849 * e + 0.000619 * f ≤ 0.0372 := by
  rw [abs_le] at *
  constructor <;> linarith

theorem iapetus_a {a b : ℝ} (ha : |a| ≤ 1) (hb : |b| ≤ 1) :
    58.872 ≤ 58.935028 + 0.004638 * a + 0.058222 * b ∧ 58.935028 + 0.004638 * a + 0.058222 * b ≤ 58.998 := by
  rw [abs_le] at *
  constructor <;> linarith

set_option maxHeartbeats 1000000 in
theorem titan_bounds (J : ℝ) : Tame (titanEl J) ∧ 0.0286 ≤ (titanEl J).e ∧ (titanEl J).e ≤ 0.02956 := by
  have D := deg_pos'
  unfold titanEl
  dsimp only
  obtain ⟨i', hi'⟩ : ∃ i', i' = 27.45141 * deg + 0.295999 * deg * cos (W3 J) := ⟨_, rfl⟩
  obtain ⟨Ω', hΩ'⟩ : ∃ Ω', Ω' = 168.66925 * deg + 0.628808 * deg * sin (W3 J) := ⟨_, rfl⟩
  rw [← hi', ← hΩ']
  have b1 := tmd (show (0 : ℝ) ≤ 0.295999 by norm_num) (abs_cos_le_one (W3 J))
  have b2 := tmd (show (0 : ℝ) ≤ 0.628808 by norm_num) (abs_sin_le_one (W3 J))
  have hs : Angle.hypot (sin (W7 J) * sin (Ω' - W8 J)) (cos (W7 J) * sin i' - sin (W7 J) * cos i' * cos (Ω' - W8 J)) ≤ 1 ∧
      0 ≤ Angle.hypot (sin (W7 J) * sin (Ω' - W8 J)) (cos (W7 J) * sin i' - sin (W7 J) * cos i' * cos (Ω' - W8 J)) := by
    have f1 := sin_sq_add_cos_sq (W7 J)
    have f2 := sin_sq_add_cos_sq (Ω' - W8 J)
    have f3 := sin_sq_add_cos_sq i'
    have := hypot_le_one (a := sin (W7 J) * sin (Ω' - W8 J)) (b := cos (W7 J) * sin i' - sin (W7 J) * cos i' * cos (Ω' - W8 J))
      (c := cos (W7 J) * cos i' + sin (W7 J) * sin i' * cos (Ω' - W8 J)) (by clear * - f1 f2 f3; grind)
    exact ⟨this.2, this.1⟩
  obtain ⟨ψ, hψ⟩ : ∃ ψ, ψ = atan2 (sin (W7 J) * sin (Ω' - W8 J)) (cos (W7 J) * sin i' - sin (W7 J) * cos i' * cos (Ω' - W8 J)) := ⟨_, rfl⟩
  obtain ⟨s, hsd⟩ : ∃ s, s = Angle.hypot (sin (W7 J) * sin (Ω' - W8 J)) (cos (W7 J) * sin i' - sin (W7 J) * cos i' * cos (Ω' - W8 J)) := ⟨_, rfl⟩
  rw [← hsd] at hs
  rw [← hsd, ← hψ]
  generalize 2 * W5 J - 2 * (atan2 (sin i' * sin (Ω' - W8 J)) (cos (W7 J) * sin i' * cos (Ω' - W8 J) - sin (W7 J) * cos i') + W8 J) + ψ = u
  have hu : |s * sin u| ≤ 1 := by
    rw [abs_mul, abs_of_nonneg hs.2]
    exact mul_le_one₀ hs.1 (abs_nonneg _) (abs_sin_le_one u)
  have hcu : |s * cos u| ≤ 1 := by
    rw [abs_mul, abs_of_nonneg hs.2]
    exact mul_le_one₀ hs.1 (abs_nonneg _) (abs_cos_le_one u)
  have t1 := tmd (show (0 : ℝ) ≤ 0.031843 by norm_num) hcu
  have t2 := tmd (show (0 : ℝ) ≤ 0.031843 by norm_num) hu
  have si : 0.3 ≤ sin i' := by
    have := sin_lower (x := i') (lo := 27 * deg) (by linarith) (by linarith) (by unfold deg at *; linarith [pi_pos])
    rw [two_deg] at this
    linarith
  refine ⟨tame_of ?_ ?_ ?_, titan_e (abs_cos_le_one _) (abs_cos_le_one _) (abs_cos_le_one _)⟩
  · linarith
  · linarith
  · have h3 : |0.031843 * deg * s * sin u / sin i'| ≤ 1 * deg := by
      rw [abs_div, abs_of_pos (show 0 < sin i' by linarith), div_le_iff₀ (by linarith), show 0.031843 * deg * s * sin u = 0.031843 * deg * (s * sin u) by ring, abs_le]
      constructor <;> nlinarith
    obtain ⟨h4, h5⟩ := abs_le.1 h3
    unfold node0
    rw [abs_le]
    constructor <;> linarith

theorem iapetus_angles {t : ℝ} (ht : |t| ≤ 5) :
    11 * deg ≤ hornerR t [18.4602 * deg, -0.9518 * deg, -0.072 * deg, 0.0054 * deg] ∧
    hornerR t [18.4602 * deg, -0.9518 * deg, -0.072 * deg, 0.0054 * deg] ≤ 26 * deg ∧
    119 * deg ≤ hornerR t [143.198 * deg, -3.919 * deg, 0.116 * deg, 0.008 * deg] ∧
    hornerR t [143.198 * deg, -3.919 * deg, 0.116 * deg, 0.008 * deg] ≤ 168 * deg := by
  have D := deg_pos'
  obtain ⟨h1, h2⟩ := abs_le.1 ht
  have q0 : 0 ≤ t ^ 2 := sq_nonneg t
  have q1 : t ^ 2 ≤ 25 := by nlinarith
  have r1 : t ^ 3 ≤ 125 := by nlinarith
  have r2 : -125 ≤ t ^ 3 := by nlinarith
  have e1 : hornerR t [18.4602 * deg, -0.9518 * deg, -0.072 * deg, 0.0054 * deg] =
      (18.4602 - 0.9518 * t - 0.072 * t ^ 2 + 0.0054 * t ^ 3) * deg := by simp only [hornerR, List.foldr]; ring
  have e2 : hornerR t [143.198 * deg, -3.919 * deg, 0.116 * deg, 0.008 * deg] =
      (143.198 - 3.919 * t + 0.116 * t ^ 2 + 0.008 * t ^ 3) * deg := by simp only [hornerR, List.foldr]; ring
  rw [e1, e2]
  refine ⟨mul_le_mul_of_nonneg_right ?_ D.le, mul_le_mul_of_nonneg_right ?_ D.le, mul_le_mul_of_nonneg_right ?_ D.le,
    mul_le_mul_of_nonneg_right ?_ D.le⟩ <;> linarith

set_option maxHeartbeats 1000000 in
theorem iapetus_bounds (J : ℝ) (hJ : |t11 J| ≤ 5) : Tame (iapetusEl J) ∧ 0.019 ≤ (iapetusEl J).e ∧ (iapetusEl J).e ≤ 0.0372 ∧
    58.872 ≤ (iapetusEl J).a ∧ (iapetusEl J).a ≤ 58.998 := by
  have D := deg_pos'
  obtain ⟨T1, T2⟩ := abs_le.1 hJ
  obtain ⟨i1, i2, o1, o2⟩ := iapetus_angles hJ
  unfold iapetusEl
  dsimp only
  generalize hornerR (t11 J) [18.4602 * deg, -0.9518 * deg, -0.072 * deg, 0.0054 * deg] = i' at *
  generalize hornerR (t11 J) [143.198 * deg, -3.919 * deg, 0.116 * deg, 0.008 * deg] = Ω' at *
  have si : 0.12 ≤ sin i' := by
    have := sin_lower i1 (by linarith) (by unfold deg at *; linarith [pi_pos])
    rw [two_deg] at this
    linarith
  refine ⟨tame_of ?_ ?_ ?_, ?_, ?_, ?_, ?_⟩
  · have h1 := fun x => tmd (show (0 : ℝ) ≤ 0.04204 by norm_num) (abs_cos_le_one x)
    have h2 := fun x => tmd (show (0 : ℝ) ≤ 0.00235 by norm_num) (abs_cos_le_one x)
    have h3 := fun x => tmd (show (0 : ℝ) ≤ 0.0036 by norm_num) (abs_cos_le_one x)
    refine lt_of_lt_of_le ?_ (add_le_add (add_le_add (add_le_add i1 (h1 _).1) (h2 _).1) (h3 _).1)
    linarith
  · have h1 := fun x => tmd (show (0 : ℝ) ≤ 0.04204 by norm_num) (abs_cos_le_one x)
    have h2 := fun x => tmd (show (0 : ℝ) ≤ 0.00235 by norm_num) (abs_cos_le_one x)
    have h3 := fun x => tmd (show (0 : ℝ) ≤ 0.0036 by norm_num) (abs_cos_le_one x)
    refine lt_of_le_of_lt (add_le_add (add_le_add (add_le_add i2 (h1 _).2) (h2 _).2) (h3 _).2) ?_
    linarith
  · have h1 := fun x => tmd (show (0 : ℝ) ≤ 0.04204 by norm_num) (abs_sin_le_one x)
    have h2 := fun x => tmd (show (0 : ℝ) ≤ 0.00235 by norm_num) (abs_sin_le_one x)
    have h3 := fun x => tmd (show (0 : ℝ) ≤ 0.00358 by norm_num) (abs_sin_le_one x)
    have h4 : ∀ x y z, |(0.04204 * deg * sin x + 0.00235 * deg * sin y + 0.00358 * deg * sin z) / sin i'| ≤ 1 * deg := by
      intro x y z
      rw [abs_div, abs_of_pos (show 0 < sin i' by linarith), div_le_iff₀ (by linarith), abs_le]
      have a1 := h1 x
      have a2 := h2 y
      have a3 := h3 z
      constructor <;> nlinarith
    dsimp only
    rw [abs_le]
    have h5 := fun x y z => abs_le.1 (h4 x y z)
    constructor
    · rw [← sub_nonneg]
      refine le_trans ?_ (sub_le_sub_right (sub_le_sub_right (add_le_add o1 (h5 _ _ _).1) _) _)
      unfold node0; linarith
    · refine le_trans (sub_le_sub_right (add_le_add o2 (h5 _ _ _).2) _) ?_
      unfold node0; linarith
  · exact iapetus_e hJ (abs_cos_le_one _) (abs_cos_le_one _) (abs_cos_le_one _) (abs_cos_le_one _) (abs_cos_le_one _) (abs_cos_le_one _) |>.1
  · exact iapetus_e hJ (abs_cos_le_one _) (abs_cos_le_one _) (abs_cos_le_one _) (abs_cos_le_one _) (abs_cos_le_one _) (abs_cos_le_one _) |>.2
  · exact iapetus_a (abs_cos_le_one _) (abs_cos_le_one _) |>.1
  · exact iapetus_a (abs_cos_le_one _) (abs_cos_le_one _) |>.2

/-- C148.  The four outer satellites: at every date (for Iapetus within five centuries of 1885) the place of the satellite is its distance times
the direction given by the elements referred to the ecliptic. -/
theorem C148_outer (J : ℝ) (hJ : |J - 2409786| ≤ 182625) :
    ∀ q ∈ [rheaEl J, titanEl J, hyperionEl J, iapetusEl J],
      place q.subr = (q.a * (1 - q.e ^ 2) / (1 + q.e * cos (q.lam - q.p + centre q.e (q.lam - q.p)))) •
        orbitDir q.i q.Ω (q.lam + centre q.e (q.lam - q.p) - q.Ω) := by
  have h11 : |t11 J| ≤ 5 := by
    unfold t11 t10
    rw [abs_le] at *
    constructor <;> linarith
  have ht : ∀ q ∈ [rheaEl J, titanEl J, hyperionEl J, iapetusEl J], Tame q := by
    intro q hq
    simp only [List.mem_cons, List.not_mem_nil, or_false] at hq
    rcases hq with rfl | rfl | rfl | rfl
    · exact (rhea_bounds J).1
    · exact (titan_bounds J).1
    · exact (hyperion_bounds J).1
    · exact (iapetus_bounds J h11).1
  intro q hq
  obtain ⟨h1, h2⟩ := ht q hq
  obtain ⟨h3, -⟩ := C148_elements q.lam q.p q.e q.a q.Ω q.i h1 h2
  unfold place
  have h4 : onRing node0 inc0 q.subr.γ q.subr.Ω q.subr.lam = orbitDir q.i q.Ω (q.lam + centre q.e (q.lam - q.p) - q.Ω) := h3
  rw [h4]
  congr 1
  show q.a * (1 - q.e * q.e) / _ = _
  rw [sq]

theorem subr_radius {q : El} {a1 a2 e : ℝ} (h1 : a1 ≤ q.a) (h2 : q.a ≤ a2) (h0 : 0 < a1) (he : 0 ≤ q.e) (he1 : q.e ≤ e) (h : e < 1) :
    a1 * (1 - e) ≤ q.subr.r ∧ q.subr.r ≤ a2 * (1 + e) := by
  obtain ⟨r1, r2⟩ := orbit_radius (a := q.a) (e := q.e) (c := cos (q.lam - q.p + centre q.e (q.lam - q.p))) (by linarith) he (by linarith) (abs_cos_le_one _)
  constructor
  · refine le_trans ?_ r1
    exact mul_le_mul h1 (by linarith) (by linarith) (by linarith)
  · refine le_trans r2 ?_
    exact mul_le_mul h2 (by linarith) (by linarith) (by linarith)

/-- C149.  The distances of the satellites from Saturn, in its radii, at every date (for Iapetus within five centuries of 1885). -/
theorem C149_distances (J : ℝ) (hJ : |J - 2409786| ≤ 182625) :
    List.Forall₂ (fun (q : R4) (b : ℝ × ℝ) => b.1 ≤ q.r ∧ q.r ≤ b.2) (moons J)
      [(3.011, 3.129), (3.922, 3.961), (4.880, 4.881), (6.235, 6.263), (8.714, 8.738), (19.618, 20.814), (21.158, 27.879), (56.681, 61.193)] := by
  have h11 : |t11 J| ≤ 5 := by
    unfold t11 t10
    rw [abs_le] at *
    constructor <;> linarith
  obtain ⟨-, r1, r2⟩ := rhea_bounds J
  obtain ⟨-, t1, t2⟩ := titan_bounds J
  obtain ⟨-, h1, h2, h3, h4⟩ := hyperion_bounds J
  obtain ⟨-, i1, i2, i3, i4⟩ := iapetus_bounds J h11
  have R := subr_radius (q := rheaEl J) le_rfl le_rfl (show (0 : ℝ) < 8.725924 by norm_num) r1 r2 (by norm_num)
  have T := subr_radius (q := titanEl J) le_rfl le_rfl (show (0 : ℝ) < 20.216193 by norm_num) (by linarith) t2 (by norm_num)
  have H := subr_radius (q := hyperionEl J) h3 h4 (by norm_num) (by linarith) h2 (by norm_num)
  have I := subr_radius (q := iapetusEl J) i3 i4 (by norm_num) (by linarith) i2 (by norm_num)
  have ha : (rheaEl J).a = 8.725924 := rfl
  have hb : (titanEl J).a = 20.216193 := rfl
  rw [ha] at R
  rw [hb] at T
  refine .cons ?_ (.cons ?_ (.cons ?_ (.cons ?_ (.cons ?_ (.cons ?_ (.cons ?_ (.cons ?_ .nil)))))))
  · have := fun c => quot_radius (a := 3.06879) (e := 0.01905) (c := cos c) (by norm_num) (by norm_num) (by norm_num) (abs_cos_le_one _)
    exact ⟨le_trans (by norm_num) (this _).1, le_trans (this _).2 (by norm_num)⟩
  · have := fun c => quot_radius (a := 3.94118) (e := 0.00485) (c := cos c) (by norm_num) (by norm_num) (by norm_num) (abs_cos_le_one _)
    exact ⟨le_trans (by norm_num) (this _).1, le_trans (this _).2 (by norm_num)⟩
  · unfold tethys; dsimp only; norm_num
  · have := fun c => quot_radius (a := 6.24871) (e := 0.002157) (c := cos c) (by norm_num) (by norm_num) (by norm_num) (abs_cos_le_one _)
    exact ⟨le_trans (by norm_num) (this _).1, le_trans (this _).2 (by norm_num)⟩
  · constructor <;> dsimp only <;> linarith
  · constructor <;> dsimp only <;> linarith
  · constructor <;> dsimp only <;> linarith
  · constructor <;> dsimp only <;> linarith

/-- C149.  Hence the satellites are returned in the order of their distances, and these never cross. -/
theorem C149_order (J : ℝ) (hJ : |J - 2409786| ≤ 182625) : ((moons J).map R4.r).Pairwise (· < ·) ∧ ∀ q ∈ moons J, 3 < q.r := by
  have h := C149_distances J hJ
  unfold moons at *
  simp only [List.forall₂_cons, List.Forall₂.nil, and_true] at h
  obtain ⟨⟨a1, a2⟩, ⟨b1, b2⟩, ⟨c1, c2⟩, ⟨d1, d2⟩, ⟨e1, e2⟩, ⟨f1, f2⟩, ⟨g1, g2⟩, ⟨h1, h2⟩⟩ := h
  constructor
  · simp only [List.map_cons, List.map_nil, List.pairwise_cons, List.mem_cons, List.not_mem_nil, or_false, forall_eq_or_imp, forall_eq, IsEmpty.forall_iff, implies_true, and_true, List.Pairwise.nil]
    refine ⟨⟨?_, ?_, ?_, ?_, ?_, ?_, ?_⟩, ⟨?_, ?_, ?_, ?_, ?_, ?_⟩, ⟨?_, ?_, ?_, ?_, ?_⟩, ⟨?_, ?_, ?_, ?_⟩, ⟨?_, ?_, ?_⟩, ⟨?_, ?_⟩, ?_⟩ <;> linarith
  · simp only [List.mem_cons, List.not_mem_nil, or_false, forall_eq_or_imp, forall_eq]
    refine ⟨?_, ?_, ?_, ?_, ?_, ?_, ?_, ?_⟩ <;> linarith

/-- The longitude of each satellite in its orbit. -/
noncomputable def El.lon (q : El) : ℝ := q.lam + centre q.e (q.lam - q.p)

/-- A motion with mean motion n degrees a day: from four centuries before 1900 to four centuries after, the longitude stays within 60° of one
uniform motion. -/
def Revolves (lon : ℝ → ℝ) (n : ℝ) : Prop :=
  ∃ L0, ∀ J, |J - 2415020| ≤ 146100 → |lon J - (L0 + n * deg * (J - 2415020))| ≤ 60 * deg

theorem centre_bound {e M : ℝ} (h0 : 0 ≤ e) (h1 : e ≤ 0.14) : |centre e M| ≤ 20.2 * deg := by
  have e2 : e * e ≤ 0.0196 := by nlinarith
  have e2' : 0 ≤ e * e := mul_self_nonneg e
  have e3 : e * e * e ≤ 0.002744 := by nlinarith
  have e3' : 0 ≤ e * e * e := by positivity
  have e4 : e * e * (e * e) ≤ 0.000385 := by nlinarith
  have e4' : 0 ≤ e * e * (e * e) := by positivity
  have e5 : e * e * e * (e * e) ≤ 0.000054 := by nlinarith
  have e5' : 0 ≤ e * e * e * (e * e) := by positivity
  have m3 : e * e * e ≤ e := by nlinarith
  have m4 : e * e * (e * e) ≤ e * e := by nlinarith
  have m5 : e * e * e * (e * e) ≤ e * e * e := by nlinarith
  unfold centre
  dsimp only
  have a1 := tm (c := 2 * e - 0.25 * (e * e * e) + 0.0520833333 * (e * e * e * (e * e))) (by linarith) (abs_sin_le_one M)
  have a2 := tm (c := 1.25 * (e * e) - 0.458333333 * (e * e * (e * e))) (by linarith) (abs_sin_le_one (2 * M))
  have a3 := tm (c := 1.083333333 * (e * e * e) - 0.671875 * (e * e * e * (e * e))) (by linarith) (abs_sin_le_one (3 * M))
  have a4 := tm (c := 1.072917 * (e * e * (e * e))) (by linarith) (abs_sin_le_one (4 * M))
  have a5 := tm (c := 1.142708 * (e * e * e * (e * e))) (by linarith) (abs_sin_le_one (5 * M))
  have hd : 0.35 ≤ 20.2 * deg := by unfold deg; linarith [pi_gt_d2]
  rw [abs_le]
  constructor <;> linarith

theorem El.lon_near {q : El} {L : ℝ} (h0 : 0 ≤ q.e) (h1 : q.e ≤ 0.14) (h : |q.lam - L| ≤ 20 * deg) : |El.lon q - L| ≤ 60 * deg := by
  have := centre_bound (M := q.lam - q.p) h0 h1
  unfold El.lon
  rw [abs_le] at *
  constructor <;> linarith [deg_pos']

theorem titan_l {J L w5 s x y a b c d f : ℝ} (hJ : |t7 J| ≤ 4) (hs : s ≤ 1) (hs0 : 0 ≤ s) (hx : |x| ≤ 1) (hy : |y| ≤ 1) (ha : |a| ≤ 1) (hb : |b| ≤ 1) (hc : |c| ≤ 1)
    (hd : |d| ≤ 1) (hf : |f| ≤ 1) :
    |L + w5 * deg * t4 J + 0.074025 * deg * a - 0.254744 * deg * (e1 J * b + 0.75 * e1 J * e1 J * c +
      (0.9375 * (0.029092 + 0.00019048 * (x - y)) * (0.029092 + 0.00019048 * (x - y)) * d + 0.1875 * s * s * f)) -
      (L + w5 * deg * t4 J)| ≤ 20 * deg := by
  have D := deg_pos'
  obtain ⟨T1, T2⟩ := abs_le.1 hJ
  obtain ⟨x1, x2⟩ := abs_le.1 hx
  obtain ⟨y1, y2⟩ := abs_le.1 hy
  obtain ⟨e, he⟩ : ∃ e, e = 0.029092 + 0.00019048 * (x - y) := ⟨_, rfl⟩
  obtain ⟨E, hE⟩ : ∃ E, E = e1 J := ⟨_, rfl⟩
  have E0 : 0 ≤ E ∧ E ≤ 1 := by rw [hE]; unfold e1; constructor <;> linarith
  have e0 : 0 ≤ e ∧ e ≤ 1 := by constructor <;> linarith
  rw [← he, ← hE]
  have E2 : E * E ≤ 1 := mul_le_one₀ E0.2 E0.1 E0.2
  have e2 : e * e ≤ 1 := mul_le_one₀ e0.2 e0.1 e0.2
  have s2 : s * s ≤ 1 := mul_le_one₀ hs hs0 hs
  have k1 := tm E0.1 hb
  have k2 := tm (c := 0.75 * (E * E)) (by nlinarith [E0.1]) hc
  have k3 := tm (c := 0.9375 * (e * e)) (by nlinarith [e0.1]) hd
  have k4 := tm (c := 0.1875 * (s * s)) (by nlinarith) hf
  have k5 := tmd (show (0 : ℝ) ≤ 0.074025 by norm_num) ha
  obtain ⟨S, hS⟩ : ∃ S, S = E * b + 0.75 * E * E * c + (0.9375 * e * e * d + 0.1875 * s * s * f) := ⟨_, rfl⟩
  have S1 : |S / 3| ≤ 1 := by
    rw [abs_le]
    constructor <;> linarith
  have k6 := tmd (show (0 : ℝ) ≤ 3 * 0.254744 by norm_num) S1
  rw [← hS, abs_le]
  constructor <;> linarith

theorem mimas_l {L L' a b c d e f : ℝ} (ha : |a| ≤ 1) (hb : |b| ≤ 1) (hc : |c| ≤ 1) (hd : |d| ≤ 1) (he : |e| ≤ 1) (hf : |f| ≤ 1) (hL : L = L') :
    |L - 43.57 * deg * a - 0.72 * deg * b - 0.02144 * deg * c + (2.18287 * deg * d + 0.025988 * deg * e + 0.00043 * deg * f) - L'| ≤ 60 * deg := by
  have k1 := tmd (show (0 : ℝ) ≤ 43.57 by norm_num) ha
  have k2 := tmd (show (0 : ℝ) ≤ 0.72 by norm_num) hb
  have k3 := tmd (show (0 : ℝ) ≤ 0.02144 by norm_num) hc
  have k4 := tmd (show (0 : ℝ) ≤ 2.18287 by norm_num) hd
  have k5 := tmd (show (0 : ℝ) ≤ 0.025988 by norm_num) he
  have k6 := tmd (show (0 : ℝ) ≤ 0.00043 by norm_num) hf
  subst hL
  rw [abs_le]
  constructor <;> linarith [deg_pos']

theorem four_l {L L' a b c d e e' : ℝ} {x y : ℝ} (hx : |x| ≤ 1) (hy : |y| ≤ 1) (ha : |a| ≤ 1) (hb : |b| ≤ 1) (hc : |c| + |d| ≤ 1) (he : |e| + |e'| ≤ 1) (hL : L = L') :
    |L + c * deg * x + d * deg * y + (e * deg * a + e' * deg * b) - L'| ≤ 60 * deg := by
  have D := deg_pos'
  have k : ∀ u v : ℝ, |v| ≤ 1 → |u * deg * v| ≤ |u| * deg := by
    intro u v hv
    rw [abs_mul, abs_mul, abs_of_pos D]
    exact mul_le_of_le_one_right (by positivity) hv
  subst hL
  rw [show L + c * deg * x + d * deg * y + (e * deg * a + e' * deg * b) - L = c * deg * x + d * deg * y + (e * deg * a + e' * deg * b) by ring]
  refine (abs_add_le _ _).trans ((add_le_add (abs_add_le _ _) (abs_add_le _ _)).trans ?_)
  have := k c x hx
  have := k d y hy
  have := k e a ha
  have := k e' b hb
  nlinarith

theorem dione_l {L L' a b c d : ℝ} (ha : -0.0215 * deg ≤ a ∧ a ≤ 0.0215 * deg) (hb : -0.01733 * deg ≤ b ∧ b ≤ 0.01733 * deg)
    (hc : -0.24717 * deg ≤ c ∧ c ≤ 0.24717 * deg) (hd : -0.00033 * deg ≤ d ∧ d ≤ 0.00033 * deg) (hL : L = L') :
    |L - a - b + (c + d) - L'| ≤ 60 * deg := by
  subst hL
  rw [abs_le]
  constructor <;> linarith [deg_pos']

theorem iapetus_l {L L' a b c d e f : ℝ} (ha : |a| ≤ 1) (hb : |b| ≤ 1) (hc : |c| ≤ 1) (hd : |d| ≤ 1) (he : |e| ≤ 1) (hf : |f| ≤ 1) (hL : L = L') :
    |L - 0.04299 * deg * a - 0.00789 * deg * b - 0.06312 * deg * c - 0.00295 * deg * d - 0.02231 * deg * e + 0.0065 * deg * f - L'| ≤ 20 * deg := by
  have k1 := tmd (show (0 : ℝ) ≤ 0.04299 by norm_num) ha
  have k2 := tmd (show (0 : ℝ) ≤ 0.00789 by norm_num) hb
  have k3 := tmd (show (0 : ℝ) ≤ 0.06312 by norm_num) hc
  have k4 := tmd (show (0 : ℝ) ≤ 0.00295 by norm_num) hd
  have k5 := tmd (show (0 : ℝ) ≤ 0.02231 by norm_num) he
  have k6 := tmd (show (0 : ℝ) ≤ 0.0065 by norm_num) hf
  subst hL
  rw [abs_le]
  constructor <;> linarith [deg_pos']

theorem titan_lam (J : ℝ) (hJ : |t7 J| ≤ 4) : |(titanEl J).lam - (261.1582 * deg + 22.57697855 * deg * t4 J)| ≤ 20 * deg := by
  have D := deg_pos'
  unfold titanEl
  dsimp only
  obtain ⟨i', hi'⟩ : ∃ i', i' = 27.45141 * deg + 0.295999 * deg * cos (W3 J) := ⟨_, rfl⟩
  obtain ⟨Ω', hΩ'⟩ : ∃ Ω', Ω' = 168.66925 * deg + 0.628808 * deg * sin (W3 J) := ⟨_, rfl⟩
  rw [← hi', ← hΩ']
  have hs : Angle.hypot (sin (W7 J) * sin (Ω' - W8 J)) (cos (W7 J) * sin i' - sin (W7 J) * cos i' * cos (Ω' - W8 J)) ≤ 1 ∧
      0 ≤ Angle.hypot (sin (W7 J) * sin (Ω' - W8 J)) (cos (W7 J) * sin i' - sin (W7 J) * cos i' * cos (Ω' - W8 J)) := by
    have f1 := sin_sq_add_cos_sq (W7 J)
    have f2 := sin_sq_add_cos_sq (Ω' - W8 J)
    have f3 := sin_sq_add_cos_sq i'
    have := hypot_le_one (a := sin (W7 J) * sin (Ω' - W8 J)) (b := cos (W7 J) * sin i' - sin (W7 J) * cos i' * cos (Ω' - W8 J))
      (c := cos (W7 J) * cos i' + sin (W7 J) * sin i' * cos (Ω' - W8 J)) (by clear * - f1 f2 f3; grind)
    exact ⟨this.2, this.1⟩
  generalize Angle.hypot (sin (W7 J) * sin (Ω' - W8 J)) (cos (W7 J) * sin i' - sin (W7 J) * cos i' * cos (Ω' - W8 J)) = s at *
  exact titan_l hJ hs.1 hs.2 (abs_cos_le_one _) (abs_cos_le_one _) (abs_sin_le_one _) (abs_sin_le_one _) (abs_sin_le_one _) (abs_sin_le_one _) (abs_sin_le_one _)

/-- C149.  The longitudes advance with the mean motions of the table, and the distances are within the given fractions of the semimajor axes of
the table: the products n²a³ agree within 0.25 %, so the eight orbits obey the third law of Kepler with one mass. -/
theorem C149_kepler :
    let table : List (ℝ × ℝ × ℝ) := [(381.994497, 3.0699, 0.0194), (262.7319002, 3.94127, 0.0051), (190.69791226, 4.880998, 0), (131.53493193, 6.24874, 0.0023),
      (79.6900472, 8.725924, 0.0014), (22.57697855, 20.216193, 0.0296), (16.91993829, 24.50601, 0.138), (4.53795125, 58.935028, 0.0384)]
    (∀ c ∈ table, |c.1 ^ 2 * c.2.1 ^ 3 - 4220000| ≤ 0.0025 * 4220000) ∧
    List.Forall₂ (fun lon (c : ℝ × ℝ × ℝ) => Revolves lon c.1)
      [fun J => (mimas J).lam, fun J => (enceladus J).lam, fun J => (tethys J).lam, fun J => (dione J).lam, fun J => El.lon (rheaEl J), fun J => El.lon (titanEl J),
        fun J => El.lon (hyperionEl J), fun J => El.lon (iapetusEl J)] table ∧
    ∀ J, |J - 2415020| ≤ 146100 → List.Forall₂ (fun (q : R4) (c : ℝ × ℝ × ℝ) => |q.r - c.2.1| ≤ c.2.2 * c.2.1) (moons J) table := by
  have D := deg_pos'
  refine ⟨?_, ?_, ?_⟩
  · simp only [List.mem_cons, List.not_mem_nil, or_false, forall_eq_or_imp, forall_eq]
    norm_num [abs_le]
  · refine .cons ?_ (.cons ?_ (.cons ?_ (.cons ?_ (.cons ?_ (.cons ?_ (.cons ?_ (.cons ?_ .nil)))))))
    · refine ⟨127.64 * deg + 381.994497 * deg * 3927, fun J hJ => ?_⟩
      simp only [mimas, t1]
      refine mimas_l (abs_sin_le_one _) (abs_sin_le_one _) (abs_sin_le_one _) (abs_sin_le_one _) (abs_sin_le_one _) (abs_sin_le_one _) ?_
      ring
    · refine ⟨200.317 * deg + 262.7319002 * deg * 3927, fun J hJ => ?_⟩
      simp only [enceladus, t1]
      refine four_l (c := 0.25667) (d := 0.20883) (e := 0.55577) (e' := 0.00168) (abs_sin_le_one _) (abs_sin_le_one _) (abs_sin_le_one _) (abs_sin_le_one _) (by norm_num) (by norm_num) ?_
      ring
    · refine ⟨285.306 * deg + 190.69791226 * deg * 3927, fun J hJ => ?_⟩
      simp only [tethys, t1]
      have h1 := tmd (show (0 : ℝ) ≤ 2.063 by norm_num) (abs_sin_le_one (W0 J))
      have h2 := tmd (show (0 : ℝ) ≤ 0.03409 by norm_num) (abs_sin_le_one (3 * W0 J))
      have h3 := tmd (show (0 : ℝ) ≤ 0.001015 by norm_num) (abs_sin_le_one (5 * W0 J))
      rw [abs_le]
      constructor <;> linarith
    · refine ⟨254.712 * deg + 131.53493193 * deg * 3927, fun J hJ => ?_⟩
      simp only [dione, t1]
      have h1 := tmd (show (0 : ℝ) ≤ 0.0215 by norm_num) (abs_sin_le_one (W1 J))
      have h2 := tmd (show (0 : ℝ) ≤ 0.01733 by norm_num) (abs_sin_le_one (W2 J))
      have h3 := fun x => tmd (show (0 : ℝ) ≤ 0.24717 by norm_num) (abs_sin_le_one x)
      have h4 := fun x => tmd (show (0 : ℝ) ≤ 0.00033 by norm_num) (abs_sin_le_one x)
      refine dione_l h1 h2 (h3 _) (h4 _) ?_
      ring
    · refine ⟨359.244 * deg + 79.6900472 * deg * 3927, fun J hJ => ?_⟩
      obtain ⟨-, r1, r2⟩ := rhea_bounds J
      refine El.lon_near r1 (by linarith) ?_
      simp only [rheaEl, t1]
      have h1 := tmd (show (0 : ℝ) ≤ 0.086754 by norm_num) (abs_sin_le_one (345 * deg - 10.057 * deg * t2 J))
      rw [abs_le]
      constructor <;> linarith
    · refine ⟨261.1582 * deg + 22.57697855 * deg * 3652, fun J hJ => ?_⟩
      obtain ⟨-, r1, r2⟩ := titan_bounds J
      refine El.lon_near (by linarith) (by linarith) ?_
      have h7 : |t7 J| ≤ 4 := by
        unfold t7 t6
        rw [abs_le] at *
        constructor <;> linarith
      have := titan_lam J h7
      rw [show 261.1582 * deg + 22.57697855 * deg * 3652 + 22.57697855 * deg * (J - 2415020) = 261.1582 * deg + 22.57697855 * deg * t4 J by unfold t4; ring]
      exact this
    · refine ⟨177.047 * deg, fun J hJ => ?_⟩
      obtain ⟨-, r1, r2, -⟩ := hyperion_bounds J
      refine El.lon_near (by linarith) (by linarith) ?_
      unfold hyperionEl
      dsimp only
      generalize 92.39 * deg + 0.5621071 * deg * t6 J = η
      generalize 148.19 * deg - 19.18 * deg * t8 J = ζ
      generalize 8 * deg + 24.44 * deg * t8 J = bs
      generalize 176 * deg + 12.22 * deg * t8 J = as
      generalize 2 * (69.898 * deg - 18.67088 * deg * t8 J - W5 J) = φ
      generalize 94.9 * deg - 2.292 * deg * t8 J = χ
      have h1 := tmd (show (0 : ℝ) ≤ 0.15648 by norm_num) (abs_sin_le_one χ)
      have h2 := tmd (show (0 : ℝ) ≤ 9.142 by norm_num) (abs_sin_le_one η)
      have h3 := tmd (show (0 : ℝ) ≤ 0.007 by norm_num) (abs_sin_le_one (2 * η))
      have h4 := tmd (show (0 : ℝ) ≤ 0.014 by norm_num) (abs_sin_le_one (3 * η))
      have h5 := tmd (show (0 : ℝ) ≤ 0.2275 by norm_num) (abs_sin_le_one (ζ + η))
      have h6 := tmd (show (0 : ℝ) ≤ 0.2112 by norm_num) (abs_sin_le_one (ζ - η))
      have h7 := tmd (show (0 : ℝ) ≤ 0.26 by norm_num) (abs_sin_le_one ζ)
      have h8 := tmd (show (0 : ℝ) ≤ 0.0098 by norm_num) (abs_sin_le_one (2 * ζ))
      have h9 := tmd (show (0 : ℝ) ≤ 0.013 by norm_num) (abs_sin_le_one as)
      have h10 := tmd (show (0 : ℝ) ≤ 0.017 by norm_num) (abs_sin_le_one bs)
      have h11 := tmd (show (0 : ℝ) ≤ 0.0303 by norm_num) (abs_sin_le_one φ)
      unfold t6
      rw [abs_le]
      constructor <;> linarith
    · refine ⟨76.3852 * deg + 4.53795125 * deg * 5234, fun J hJ => ?_⟩
      have h11 : |t11 J| ≤ 5 := by
        unfold t11 t10
        rw [abs_le] at *
        constructor <;> linarith
      obtain ⟨-, r1, r2, -⟩ := iapetus_bounds J h11
      refine El.lon_near (by linarith) (by linarith) ?_
      unfold iapetusEl
      dsimp only
      refine iapetus_l (abs_sin_le_one _) (abs_sin_le_one _) (abs_sin_le_one _) (abs_sin_le_one _) (abs_sin_le_one _) (abs_sin_le_one _) ?_
      unfold t10; ring
  · intro J hJ
    have hJ' : |J - 2409786| ≤ 182625 := by
      rw [abs_le] at *
      constructor <;> linarith
    have h11 : |t11 J| ≤ 5 := by
      unfold t11 t10
      rw [abs_le] at *
      constructor <;> linarith
    have ht : (tethys J).r = 4.880998 := rfl
    have h := C149_distances J hJ'
    unfold moons at *
    simp only [List.forall₂_cons, List.Forall₂.nil, and_true] at h ⊢
    obtain ⟨⟨a1, a2⟩, ⟨b1, b2⟩, ⟨c1, c2⟩, ⟨d1, d2⟩, ⟨e1, e2⟩, ⟨f1, f2⟩, ⟨g1, g2⟩, ⟨h1, h2⟩⟩ := h
    simp only [abs_le]
    refine ⟨⟨?_, ?_⟩, ⟨?_, ?_⟩, ⟨?_, ?_⟩, ⟨?_, ?_⟩, ⟨?_, ?_⟩, ⟨?_, ?_⟩, ⟨?_, ?_⟩, ?_, ?_⟩ <;> linarith

/-- C148.  What `Positions` returns: for each satellite in turn, its coordinates (X, Y) on the sky in perspective at the distance Δ, X displaced
by at most 1/20947 of its depth |Z|; no coordinate is NaN for a date in the range of C149, if Saturn is at least one astronomical unit away. -/
theorem C148_positions (jde : ℝ) (earth saturn : PlanetPhys.Planet) (hJ : |JDE earth saturn jde - 2409786| ≤ 182625)
    (hΔ : 1 ≤ len (geo2 earth saturn jde)) :
    let Δ := 2475 * len (geo2 earth saturn jde)
    let s := sight (geo2 earth saturn jde) jde
    List.Forall₂ (fun (p : ℝ × ℝ) (q : R4) =>
      let v := seen s.Lon s.Lat q
      0 < Δ + v.2.2 ∧ p.2 = v.2.1 * (Δ / (Δ + v.2.2)) ∧ |p.1 - v.1 * (Δ / (Δ + v.2.2))| ≤ |v.2.2| / 20947 * (Δ / (Δ + v.2.2)))
      (Positions jde earth saturn) (moons (JDE earth saturn jde)) := by
  intro Δ s
  obtain ⟨-, hpos⟩ := C149_order _ hJ
  have hd := C149_distances _ hJ
  have hle : ∀ q ∈ moons (JDE earth saturn jde), q.r < 2475 := by
    unfold moons at *
    simp only [List.forall₂_cons, List.Forall₂.nil, and_true] at hd
    obtain ⟨⟨a1, a2⟩, ⟨b1, b2⟩, ⟨c1, c2⟩, ⟨d1, d2⟩, ⟨e1, e2⟩, ⟨f1, f2⟩, ⟨g1, g2⟩, ⟨h1, h2⟩⟩ := hd
    simp only [List.mem_cons, List.not_mem_nil, or_false, forall_eq_or_imp, forall_eq]
    refine ⟨?_, ?_, ?_, ?_, ?_, ?_, ?_, ?_⟩ <;> linarith
  have one : ∀ q ∈ moons (JDE earth saturn jde), ∀ k : ℝ, 20947 ≤ k →
      let v := seen s.Lon s.Lat q
      let p := corrected (len (geo2 earth saturn jde)) k q.r v
      0 < Δ + v.2.2 ∧ p.2 = v.2.1 * (Δ / (Δ + v.2.2)) ∧ |p.1 - v.1 * (Δ / (Δ + v.2.2))| ≤ |v.2.2| / 20947 * (Δ / (Δ + v.2.2)) := by
    intro q hq k hk v p
    obtain ⟨-, h2, h3, δ, d0, d1, h4⟩ := C148_corrected s.Lon s.Lat q (Δ := len (geo2 earth saturn jde)) (k := k) (by linarith) (by linarith [hpos q hq])
      (by have := hle q hq; linarith)
    have h2 : 0 < Δ + v.2.2 := h2
    have hΔp : 0 < Δ := by simp only [Δ]; linarith
    refine ⟨h2, ?_, ?_⟩
    · show (corrected _ _ _ _).2 = _
      rw [h3]; show Δ * v.2.1 / (Δ + v.2.2) = _; ring
    · have e : p.1 - v.1 * (Δ / (Δ + v.2.2)) = δ * (Δ / (Δ + v.2.2)) := by
        show (corrected _ _ _ _).1 - _ = _
        rw [h4]; show Δ * (v.1 + δ) / (Δ + v.2.2) - _ = _; ring
      rw [e, abs_of_nonneg (by positivity)]
      refine mul_le_mul_of_nonneg_right (d1.trans ?_) (by positivity)
      exact div_le_div_of_nonneg_left (abs_nonneg _) (by norm_num) hk
  unfold Positions
  dsimp only
  unfold moons k at *
  simp only [List.zip_cons_cons, List.zip_nil_left, List.map_cons, List.map_nil]
  simp only [List.mem_cons, List.not_mem_nil, or_false, forall_eq_or_imp, forall_eq] at one
  obtain ⟨o1, o2, o3, o4, o5, o6, o7, o8⟩ := one
  exact .cons (o1 _ le_rfl) (.cons (o2 _ (by norm_num)) (.cons (o3 _ (by norm_num)) (.cons (o4 _ (by norm_num)) (.cons (o5 _ (by norm_num))
    (.cons (o6 _ (by norm_num)) (.cons (o7 _ (by norm_num)) (.cons (o8 _ (by norm_num)) .nil)))))))

/-- A concrete case: the ring seen edge on from its node, a satellite five radii behind the planet. -/
example : seen node0 0 ⟨node0, 5, 0, node0⟩ = (0, 0, 5) := by
  have h := sin_sq_add_cos_sq node0
  have e1 : cos node0 * 5 * cos node0 + sin node0 * 5 * sin node0 = 5 := by linear_combination 5 * h
  have e2 : cos node0 * 5 * sin node0 - sin node0 * 5 * cos node0 = 0 := by ring
  simp [seen, ABC, ringXYZ, e1, e2]

/-- A concrete case of the hypotheses of the reduction: the orbit of Titan's mean elements at the epoch 2411368. -/
example : 0 < sin (27.45141 * deg) ∧ 0 < cos (27.45141 * deg) * cos inc0 + sin (27.45141 * deg) * sin inc0 * cos (168.66925 * deg - node0) :=
  tame_of (q := ⟨0, 0, 0, 0, 168.66925 * deg, 27.45141 * deg⟩) (by have := deg_pos'; dsimp only; linarith) (by have := deg_pos'; dsimp only; linarith)
    (by have := deg_pos'; unfold node0; dsimp only; rw [abs_le]; constructor <;> linarith)

/-- The range of dates of C149 contains the years 1600 to 2200. -/
example : |(2305447.5 : ℝ) - 2409786| ≤ 182625 ∧ |(2524593.5 : ℝ) - 2409786| ≤ 182625 := by
  constructor <;> norm_num [abs_le]

end Verif.Props.SatMoons
