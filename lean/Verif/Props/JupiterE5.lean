import Verif.Model.JupiterE5
import Verif.Model.JupiterMoons
import Verif.Props.SaturnMoons
import Verif.Props.JupiterMoons
import Verif.Lemmas.Series
/-
C150, C151, C152: the satellites of Jupiter by the theory E5 (jupitermoons.E5).
-/
namespace Verif.Props.JupE5

open Real Verif.Go Verif.Spec Verif.Lemmas Verif.Model Verif.Model.JupE5 Verif.Props.SatMoons

/-- A vector given in Jupiter's equator, counted from the node of the equator on the orbit: in the ecliptic.  The orbit has inclination i and node Ω on
the ecliptic; the equator has inclination I and node Ω + Φ on the orbit. -/
noncomputable def fromEquator (I Φ i Ω : ℝ) (v : V3) : V3 := rotZ Ω (rotX i (rotZ Φ (rotX I v)))

theorem fromEquator_inner (I Φ i Ω : ℝ) (v w : V3) : inner ℝ (fromEquator I Φ i Ω v) (fromEquator I Φ i Ω w) = inner ℝ v w := by
  unfold fromEquator
  rw [inner_rotZ, inner_rotX, inner_rotZ, inner_rotX]

theorem steps_vec (I Φ i Ω x y z : ℝ) :
    (!₂[(steps I Φ i Ω (x, y, z)).1, (steps I Φ i Ω (x, y, z)).2.1, (steps I Φ i Ω (x, y, z)).2.2] : V3) = fromEquator I Φ i Ω !₂[x, y, z] := by
  unfold steps fromEquator
  rw [rotX_vec, rotZ_vec, rotX_vec, rotZ_vec]
  dsimp only
  apply vec_eq <;> ring

theorem sky_eq (lam0 β0 x y z : ℝ) :
    (sky lam0 β0 (x, y, z)).1 = -inner ℝ (east lam0) (!₂[x, y, z] : V3) ∧
    (sky lam0 β0 (x, y, z)).2.1 = inner ℝ (dir lam0 β0) (!₂[x, y, z] : V3) ∧
    (sky lam0 β0 (x, y, z)).2.2 = inner ℝ (north lam0 β0) (!₂[x, y, z] : V3) := by
  unfold sky dir east north
  rw [inner_vec, inner_vec, inner_vec]
  dsimp only
  refine ⟨?_, ?_, ?_⟩ <;> ring

/-- C150.  For every line of sight (λ0, β0), every date and every longitude L, latitude B and radius R of a satellite referred to Jupiter's equator: with P the
position in space, s the line of sight and N Jupiter's pole, the coordinates before the corrections are the components of P along s × N, along the
projection of N on the sky, and along s. -/
theorem C150_view (lam0 β0 jde t i Ω L B R : ℝ) :
    let ψ := psi t + prec jde
    let N := fromEquator (incl jde) (ψ - Ω) i Ω !₂[0, 0, 1]
    let P := R • fromEquator (incl jde) (ψ - Ω) i Ω (dir (L + prec jde - ψ) B)
    let s := dir lam0 β0
    let v := view lam0 β0 jde t i Ω L B R
    ‖perp s N‖ * v.1 = inner ℝ (cross s N) P ∧ ‖perp s N‖ * v.2.1 = inner ℝ (perp s N) P ∧ v.2.2 = inner ℝ s P ∧
    v.1 ^ 2 + v.2.1 ^ 2 + v.2.2 ^ 2 = R ^ 2 := by
  intro ψ N P s v
  have hx : (!₂[(XYZ (L + prec jde) ψ B R).1, (XYZ (L + prec jde) ψ B R).2.1, (XYZ (L + prec jde) ψ B R).2.2] : V3) = R • dir (L + prec jde - ψ) B := by
    unfold XYZ dir
    rw [smul_vec]
    apply vec_eq <;> ring
  obtain ⟨x, y, z, hr⟩ : ∃ x y z, XYZ (L + prec jde) ψ B R = (x, y, z) := ⟨_, _, _, rfl⟩
  rw [hr] at hx
  dsimp only at hx
  have hv : v = seen (sky lam0 β0 (steps (incl jde) (ψ - Ω) i Ω (0, 0, 1))) (sky lam0 β0 (steps (incl jde) (ψ - Ω) i Ω (x, y, z))) := by
    show view lam0 β0 jde t i Ω L B R = _
    unfold view
    dsimp only
    rw [hr]
  have hP : P = fromEquator (incl jde) (ψ - Ω) i Ω !₂[x, y, z] := by
    rw [hx]
    show R • fromEquator (incl jde) (ψ - Ω) i Ω (dir (L + prec jde - ψ) B) = _
    generalize dir (L + prec jde - ψ) B = w
    unfold fromEquator
    rw [vec_self w, smul_vec, rotX_vec, rotZ_vec, rotX_vec, rotZ_vec, smul_vec, rotX_vec, rotZ_vec, rotX_vec, rotZ_vec]
    apply vec_eq <;> ring
  have h1 := steps_vec (incl jde) (ψ - Ω) i Ω x y z
  rw [← hP] at h1
  have h0 := steps_vec (incl jde) (ψ - Ω) i Ω 0 0 1
  obtain ⟨a, b, c, hs⟩ : ∃ a b c, steps (incl jde) (ψ - Ω) i Ω (x, y, z) = (a, b, c) := ⟨_, _, _, rfl⟩
  obtain ⟨a', b', c', hs'⟩ : ∃ a b c, steps (incl jde) (ψ - Ω) i Ω (0, 0, 1) = (a, b, c) := ⟨_, _, _, rfl⟩
  rw [hs] at h1
  rw [hs'] at h0
  dsimp only at h1 h0
  obtain ⟨p1, p2, p3⟩ := sky_eq lam0 β0 a b c
  obtain ⟨n1, n2, n3⟩ := sky_eq lam0 β0 a' b' c'
  rw [h1] at p1 p2 p3
  rw [h0] at n1 n2 n3
  have hq : inner ℝ P P = R ^ 2 := by
    show inner ℝ (R • fromEquator _ _ _ _ _) (R • fromEquator _ _ _ _ _) = _
    rw [inner_smul_left, inner_smul_right, fromEquator_inner]
    unfold dir
    rw [inner_vec]
    simp only [conj_trivial]
    linear_combination (R ^ 2 * cos B ^ 2) * sin_sq_add_cos_sq (L + prec jde - ψ) + R ^ 2 * sin_sq_add_cos_sq B
  rw [hv, hs, hs', ← hq]
  unfold seen
  exact sky_frame lam0 β0 N P n1 n3 p1 p2 p3

/-! ### Distances, latitudes, longitudes -/

theorem coef_tail {f : ℝ → ℝ} (hf : ∀ x, |f x| ≤ 1) {h : ℝ × ℝ} {l : List (ℝ × ℝ)} {b : ℝ} (hb : (l.map fun t => |t.1|).sum ≤ b) :
    |series f (h :: l) - h.1 * f h.2| ≤ b := by
  rw [series_cons, show h.1 * f h.2 + series f l - h.1 * f h.2 = series f l by ring]
  exact (series_abs f hf l).trans hb

/-- C151.  The distances from Jupiter, in its equatorial radii, at every instant. -/
theorem C151_distances (t : ℝ) : 5.880 < R1 t ∧ R1 t < 5.931 ∧ 9.300 < R2 t ∧ R2 t < 9.493 ∧ 14.941 < R3 t ∧ R3 t < 15.036 ∧ 26.156 < R4 t ∧ R4 t < 26.570 := by
  have a1 : |series cos (R1l t)| ≤ 0.0042414 := (series_cos_abs _).trans (by unfold R1l; norm_num)
  have a2 : |series cos (R2l t)| ≤ 0.010199 := (series_cos_abs _).trans (by unfold R2l; norm_num)
  have a3 : |series cos (R3l t)| ≤ 0.003129 := (series_cos_abs _).trans (by unfold R3l; norm_num)
  have a4 : |series cos (R4l t)| ≤ 0.007835 := (series_cos_abs _).trans (by unfold R4l; norm_num)
  rw [abs_le] at a1 a2 a3 a4
  unfold R1 R2 R3 R4
  refine ⟨?_, ?_, ?_, ?_, ?_, ?_, ?_, ?_⟩ <;> linarith

theorem arctan_le_self {x : ℝ} (h : 0 ≤ x) : arctan x ≤ x := by
  have := le_tan (arctan_nonneg.2 h) (arctan_lt_pi_div_two x)
  rwa [tan_arctan] at this

theorem arctan_small {x b : ℝ} (h : |x| ≤ b) : |arctan x| ≤ b := by
  refine le_trans ?_ h
  rcases le_total 0 x with h0 | h0
  · rw [abs_of_nonneg (arctan_nonneg.2 h0), abs_of_nonneg h0]; exact arctan_le_self h0
  · rw [← abs_neg (arctan x), ← arctan_neg, ← abs_neg x]
    have h1 : 0 ≤ -x := by linarith
    rw [abs_of_nonneg (arctan_nonneg.2 h1), abs_of_nonneg h1]; exact arctan_le_self h1

/-- C151.  The satellites stay close to the plane of Jupiter's equator: 0.06°, 0.52°, 0.35°, 0.73°. -/
theorem C151_latitudes (t : ℝ) : |B1 t| < 0.06 * deg ∧ |B2 t| < 0.52 * deg ∧ |B3 t| < 0.35 * deg ∧ |B4 t| < 0.73 * deg := by
  have a1 : |B1 t| ≤ 0.00091 := arctan_small ((series_sin_abs _).trans (by unfold B1l; norm_num))
  have a2 : |B2 t| ≤ 0.00906 := arctan_small ((series_sin_abs _).trans (by unfold B2l; norm_num))
  have a3 : |B3 t| ≤ 0.005951 := arctan_small ((series_sin_abs _).trans (by unfold B3l; norm_num))
  have a4 : |B4 t| ≤ 0.0127 := arctan_small ((series_sin_abs _).trans (by unfold B4l; norm_num))
  have D : 0.01745 < deg := Props.jdeg.2.1
  refine ⟨?_, ?_, ?_, ?_⟩ <;> linarith

theorem longitude_terms (t : ℝ) : |L1 t - l1 t| ≤ 0.573 * deg ∧ |L2 t - l2 t| ≤ 1.308 * deg ∧ |L3 t - l3 t| ≤ 0.45 * deg ∧ |L4 t - l4 t| ≤ 1.015 * deg := by
  have D := deg_pos'
  have a1 : |series sin (S1l t)| ≤ 0.573 := (series_sin_abs _).trans (by unfold S1l; norm_num)
  have a2 : |series sin (S2l t)| ≤ 1.308 := (series_sin_abs _).trans (by unfold S2l; norm_num)
  have a3 : |series sin (S3l t)| ≤ 0.45 := (series_sin_abs _).trans (by unfold S3l; norm_num)
  have a4 : |series sin (S4l t)| ≤ 1.015 := (series_sin_abs _).trans (by unfold S4l; norm_num)
  have e : ∀ {a s b : ℝ}, |s| ≤ b → |a + s * deg - a| ≤ b * deg := by
    intro a s b h
    rw [show a + s * deg - a = s * deg by ring, abs_mul, abs_of_pos D]
    exact mul_le_mul_of_nonneg_right h D.le
  exact ⟨e a1, e a2, e a3, e a4⟩

/-- The uniform motion of each satellite (degrees a day) and its mean distance. -/
def motions : List (ℚ × ℚ) := [(203.48895579, 5.90569), (101.374724735, 9.39657), (50.317609207, 14.98832), (21.571071177, 26.36273)]

/-- C151.  Each longitude stays within 1.31° of a uniform motion n, each distance within 1.1 % of a, and n²a³ is the same number to 0.05 %: Kepler's
third law. -/
theorem C151_kepler :
    (∀ q ∈ motions, |q.1 ^ 2 * q.2 ^ 3 - 8526800| ≤ 4000) ∧
    List.Forall₂ (fun (f : (ℝ → ℝ) × (ℝ → ℝ)) (q : ℚ × ℚ) => ∃ l0, ∀ t, |f.1 t - (l0 + q.1 * deg * t)| ≤ 1.31 * deg ∧ |f.2 t - q.2| ≤ 0.011 * q.2)
      [(L1, R1), (L2, R2), (L3, R3), (L4, R4)] motions := by
  have D := deg_pos'
  constructor
  · decide +kernel
  · refine .cons ⟨106.07719 * deg, fun t => ?_⟩ (.cons ⟨175.73161 * deg, fun t => ?_⟩ (.cons ⟨120.55883 * deg, fun t => ?_⟩ (.cons ⟨84.44459 * deg, fun t => ?_⟩ .nil)))
    all_goals
      obtain ⟨a1, a2, a3, a4, a5, a6, a7, a8⟩ := C151_distances t
      obtain ⟨b1, b2, b3, b4⟩ := longitude_terms t
      unfold l1 at b1
      unfold l2 at b2
      unfold l3 at b3
      unfold l4 at b4
      push_cast
      simp only [abs_le] at *
      refine ⟨⟨?_, ?_⟩, ?_, ?_⟩ <;> linarith

/-- C151.  The mean longitudes satisfy Laplace's relation, to 0.001° within 2700 years. -/
theorem C151_laplace (t : ℝ) (ht : |t| ≤ 900000) : |l1 t - 3 * l2 t + 2 * l3 t + π| ≤ 0.001 * deg := by
  have D := deg_pos'
  have e : l1 t - 3 * l2 t + 2 * l3 t + π = (0.00002 - 0.000000001 * t) * deg := by
    unfold l1 l2 l3 deg; ring
  rw [e, abs_mul, abs_of_pos D]
  apply mul_le_mul_of_nonneg_right _ D.le
  rw [abs_le] at *
  constructor <;> linarith

/-- C151.  Hence the three inner satellites are never together on one side of Jupiter: no direction is within 29° of the longitudes of all three. -/
theorem C151_never_together (t a : ℝ) (ht : |t| ≤ 900000) :
    ¬ ∃ n1 n2 n3 : ℤ, |L1 t - a - n1 * (2 * π)| ≤ 29 * deg ∧ |L2 t - a - n2 * (2 * π)| ≤ 29 * deg ∧ |L3 t - a - n3 * (2 * π)| ≤ 29 * deg := by
  rintro ⟨n1, n2, n3, h1, h2, h3⟩
  have D := deg_pos'
  have hp : π = 180 * deg := by unfold deg; ring
  have hl := C151_laplace t ht
  obtain ⟨b1, b2, b3, -⟩ := longitude_terms t
  obtain ⟨m, hm⟩ : ∃ m : ℤ, m = n1 - 3 * n2 + 2 * n3 := ⟨_, rfl⟩
  have hm' : (m : ℝ) = n1 - 3 * n2 + 2 * n3 := by rw [hm]; push_cast; ring
  have key : |(2 * (m : ℝ) + 1) * (180 * deg)| < 179.9 * deg := by
    rw [hm']
    rw [hp] at h1 h2 h3 hl
    simp only [abs_le, abs_lt] at *
    constructor <;> linarith
  rw [show (2 * (m : ℝ) + 1) * (180 * deg) = ((2 * m + 1 : ℤ) : ℝ) * (180 * deg) by push_cast; ring, abs_mul, abs_of_pos (show 0 < 180 * deg by positivity)] at key
  have h1 : (1 : ℝ) ≤ |((2 * m + 1 : ℤ) : ℝ)| := by
    rw [← Int.cast_abs]
    have : (1 : ℤ) ≤ |2 * m + 1| := Int.one_le_abs (by omega)
    exact_mod_cast this
  nlinarith

/-- C150.  `E5`: at every date within the range of C77 four positions are returned; each is the projection of C150_view of the satellite's place, for the
line of sight to Jupiter at the light time, seen in perspective (one astronomical unit taken as 2095 radii of Jupiter), with X first displaced by at
most the depth divided by 17295, and the time of the theory is the date, less the light time of 0.0057755183 day per astronomical unit.  No root of a negative number is taken. -/
theorem C150_E5 (jde : ℝ) (earth jupiter : PlanetPhys.Planet) (hΔ : 0.02 ≤ SatMoons.len (geo2 earth jupiter jde)) :
    ∃ Ω i, PlanetElements.Node 4 jde = some Ω ∧ PlanetElements.Inc 4 jde = some i ∧ ∃ ps, E5 jde earth jupiter = some ps ∧
      List.Forall₂ (fun (p : ℝ × ℝ) (s : ℝ × ℝ × ℝ × ℝ) =>
        let v := geo2 earth jupiter jde
        let Δ := SatMoons.len v
        let w := view (lam0 v) (bet0 v) jde (jde - 2443000.5 - 0.0057755183 * Δ) i Ω s.1 s.2.1 s.2.2.1
        0 ≤ 1 - w.1 / s.2.2.1 * (w.1 / s.2.2.1) ∧ 0 < 2095 * Δ + w.2.2 ∧ p.2 = 2095 * Δ * w.2.1 / (2095 * Δ + w.2.2) ∧
        ∃ δ, 0 ≤ δ ∧ δ ≤ |w.2.2| / 17295 ∧ p.1 = 2095 * Δ * (w.1 + δ) / (2095 * Δ + w.2.2)) ps (sats (jde - 2443000.5 - 0.0057755183 * SatMoons.len (geo2 earth jupiter jde))) := by
  have ht : time (geo2 earth jupiter jde) jde = jde - 2443000.5 - 0.0057755183 * SatMoons.len (geo2 earth jupiter jde) := rfl
  rw [← ht]
  obtain ⟨Ω, hΩ⟩ : ∃ Ω, PlanetElements.Node 4 jde = some Ω := ⟨_, rfl⟩
  obtain ⟨i, hi⟩ : ∃ i, PlanetElements.Inc 4 jde = some i := ⟨_, rfl⟩
  refine ⟨Ω, i, hΩ, hi, _, by simp only [E5, hΩ, hi, Option.bind_eq_bind, Option.bind_some]; rfl, ?_⟩
  rw [List.forall₂_map_left_iff, List.forall₂_same]
  intro s hs v Δ w
  obtain ⟨-, -, -, hn⟩ := C150_view (lam0 v) (bet0 v) jde (time v jde) i Ω s.1 s.2.1 s.2.2.1
  have hr : 0 < s.2.2.1 ∧ s.2.2.1 < 2095 * Δ ∧ 17295 ≤ s.2.2.2 := by
    obtain ⟨a1, a2, a3, a4, a5, a6, a7, a8⟩ := C151_distances (time (geo2 earth jupiter jde) jde)
    have hΔ' : 0.02 ≤ Δ := hΔ
    unfold sats at hs
    simp only [List.mem_cons, List.not_mem_nil, or_false] at hs
    rcases hs with rfl | rfl | rfl | rfl <;> refine ⟨?_, ?_, ?_⟩ <;> first | linarith | norm_num
  obtain ⟨c1, c2, c3, δ, d0, d1, d2⟩ := sky_corrected hn (k := s.2.2.2) (by linarith [hr.2.2]) hr.1 (show (0 : ℝ) < 2095 by norm_num) hr.2.1
  refine ⟨c1, c2, c3, δ, d0, d1.trans ?_, d2⟩
  exact div_le_div_of_nonneg_left (abs_nonneg _) (by norm_num) hr.2.2

/-- C150.  The line of sight is the direction of Jupiter less the Earth. -/
theorem C150_sight (v : ℝ × ℝ × ℝ) (hv : 0 < v.1 ^ 2 + v.2.1 ^ 2) : SatMoons.len v • dir (lam0 v) (bet0 v) = !₂[v.1, v.2.1, v.2.2] := by
  have hne : v.1 ≠ 0 ∨ v.2.1 ≠ 0 := by
    by_contra hc
    push Not at hc
    rw [hc.1, hc.2] at hv
    norm_num at hv
  exact dir_arctan v.2.2 hne

/-- The hypothesis of C150_E5 holds for planets at the distances of the Earth and Jupiter. -/
theorem C150_far (jde : ℝ) (earth jupiter : PlanetPhys.Planet) (he : 0 < (earth jde).2.2 ∧ (earth jde).2.2 ≤ 1.02) (hj : ∀ t, 4.9 ≤ (jupiter t).2.2) :
    2.86 ≤ SatMoons.len (geo2 earth jupiter jde) := by
  unfold geo2
  dsimp only
  generalize Elliptic.LightTime (SatMoons.len _) = τ
  unfold geo
  have hR : (Solar.TrueVSOP87 earth jde).2.2 = (earth jde).2.2 := rfl
  have hr := hj (jde - τ)
  rw [hR]
  generalize (Solar.TrueVSOP87 earth jde).1 = s
  generalize (Solar.TrueVSOP87 earth jde).2.1 = β
  obtain ⟨R, hR'⟩ : ∃ R, R = (earth jde).2.2 := ⟨_, rfl⟩
  rw [← hR'] at he ⊢
  obtain ⟨l, b, r, hq⟩ : ∃ l b r, jupiter (jde - τ) = (l, b, r) := ⟨_, _, _, rfl⟩
  rw [hq] at hr ⊢
  dsimp only at hr ⊢
  have f1 := sin_sq_add_cos_sq l
  have f2 := sin_sq_add_cos_sq b
  have key : cos b * cos l * (r * cos b * cos l + R * cos s) + cos b * sin l * (r * cos b * sin l + R * sin s) + sin b * (r * sin b + R * sin β) =
      r + R * (cos b * cos (l - s) + sin b * sin β) := by
    rw [cos_sub]
    linear_combination (r * cos b ^ 2) * f1 + r * f2
  have k1 : -1 ≤ cos b * cos (l - s) := by
    have : |cos b * cos (l - s)| ≤ 1 := by rw [abs_mul]; exact mul_le_one₀ (abs_cos_le_one _) (abs_nonneg _) (abs_cos_le_one _)
    exact (abs_le.1 this).1
  have k2 : -1 ≤ sin b * sin β := by
    have : |sin b * sin β| ≤ 1 := by rw [abs_mul]; exact mul_le_one₀ (abs_sin_le_one _) (abs_nonneg _) (abs_sin_le_one _)
    exact (abs_le.1 this).1
  have k3 : 2.86 ≤ r + R * (cos b * cos (l - s) + sin b * sin β) := by nlinarith
  refine k3.trans ?_
  rw [← key]
  unfold SatMoons.len
  dsimp only
  apply le_sqrt_of_sq_le
  generalize r * cos b * cos l + R * cos s = x
  generalize r * cos b * sin l + R * sin s = y
  generalize r * sin b + R * sin β = z
  have hn : (cos b * cos l) ^ 2 + (cos b * sin l) ^ 2 + sin b ^ 2 = 1 := by linear_combination (cos b ^ 2) * f1 + f2
  have := sq_nonneg (cos b * cos l * y - cos b * sin l * x)
  have := sq_nonneg (cos b * cos l * z - sin b * x)
  have := sq_nonneg (cos b * sin l * z - sin b * y)
  have e : (cos b * cos l * x + cos b * sin l * y + sin b * z) ^ 2 + (cos b * cos l * y - cos b * sin l * x) ^ 2 + (cos b * cos l * z - sin b * x) ^ 2 +
      (cos b * sin l * z - sin b * y) ^ 2 = x * x + y * y + z * z := by linear_combination (x ^ 2 + y ^ 2 + z ^ 2) * hn
  linarith

/-- Concrete case: planets standing still at distances 1 and 5.2. -/
example : 0.02 ≤ SatMoons.len (geo2 (fun _ => (0, 0, 1)) (fun _ => (2, 0.01, 5.2)) 2448972.5) :=
  le_trans (by norm_num) (C150_far _ _ _ (by norm_num) (fun _ => by norm_num))

/-! ### Comparison with `Positions` -/

theorem sin_near {x y b : ℝ} (n : ℤ) (h : |x - y - n * (2 * π)| ≤ b) : |sin x - sin y| ≤ b := by
  rw [← sin_sub_int_mul_two_pi x n]
  refine (abs_sin_sub_sin _ _).trans ?_
  rwa [show x - n * (2 * π) - y = x - y - n * (2 * π) by ring]

theorem cos_near {x y b : ℝ} (n : ℤ) (h : |x - y - n * (2 * π)| ≤ b) : |cos x - cos y| ≤ b := by
  rw [← cos_sub_int_mul_two_pi x n]
  refine (abs_cos_sub_cos _ _).trans ?_
  rwa [show x - n * (2 * π) - y = x - y - n * (2 * π) by ring]

/-- A number of degrees a + bx + cδ for |x| ≤ 109576, |δ| ≤ 0.0002. -/
theorem lin_bound {a b c x δ e y : ℝ} (hy : y = (a + b * x + c * δ) * deg) (hx : |x| ≤ 109576) (hδ : |δ| ≤ 0.0002)
    (he : |a| + |b| * 109576 + |c| * 0.0002 ≤ e) : |y| ≤ e * deg := by
  have D := deg_pos'
  rw [hy, abs_mul, abs_of_pos D]
  refine mul_le_mul_of_nonneg_right (le_trans ?_ he) D.le
  refine (abs_add_le _ _).trans (add_le_add ((abs_add_le _ _).trans (add_le_add le_rfl ?_)) ?_)
  · rw [abs_mul]; exact mul_le_mul_of_nonneg_left hx (abs_nonneg _)
  · rw [abs_mul]; exact mul_le_mul_of_nonneg_left hδ (abs_nonneg _)

/-- Adding the largest periodic term of each theory. -/
theorem term_near {a b s c c' x y e f : ℝ} (h : |a - b| ≤ e * deg) (hs : |s - c * sin x| ≤ f) (hxy : |sin x - sin y| ≤ 0.02) (hc : |c - c'| ≤ 0.001) (h0 : |c| ≤ 1.07)
    {g : ℝ} (hg : e + f + 0.0225 ≤ g) : |a + s * deg - (b + c' * deg * sin y)| ≤ g * deg := by
  have D := deg_pos'
  have e1 : |s - c' * sin y| ≤ f + 0.0225 := by
    have e2 : s - c' * sin y = (s - c * sin x) + (c * (sin x - sin y) + (c - c') * sin y) := by ring
    rw [e2]
    refine (abs_add_le _ _).trans (add_le_add hs ((abs_add_le _ _).trans ?_))
    rw [abs_mul, abs_mul]
    have := mul_le_mul h0 hxy (abs_nonneg _) (by norm_num)
    have := mul_le_mul hc (abs_sin_le_one y) (abs_nonneg _) (by norm_num)
    linarith
  have e3 : a + s * deg - (b + c' * deg * sin y) = (a - b) + (s - c' * sin y) * deg := by ring
  rw [e3]
  refine (abs_add_le _ _).trans ((add_le_add h ?_).trans (?_ : e * deg + (f + 0.0225) * deg ≤ _))
  · rw [abs_mul, abs_of_pos D]; exact mul_le_mul_of_nonneg_right e1 D.le
  · rw [← add_mul]; exact mul_le_mul_of_nonneg_right (by linarith) D.le

theorem radius_near {a s c x y A A' C f e : ℝ} (hr : a = A * (1 + s)) (hs : |s - c * cos x| ≤ f) (hxy : |cos x - C * cos y| ≤ e) (hA : 0 ≤ A) {c' g : ℝ}
    (hg : |A - A'| + A * f + A * |c| * e + |A * c * C - c'| ≤ g) : |a - (A' + c' * cos y)| ≤ g := by
  have e1 : a - (A' + c' * cos y) = (A - A') + A * (s - c * cos x) + A * c * (cos x - C * cos y) + (A * c * C - c') * cos y := by rw [hr]; ring
  rw [e1]
  refine le_trans ?_ hg
  refine (abs_add_le _ _).trans (add_le_add ((abs_add_le _ _).trans (add_le_add ((abs_add_le _ _).trans (add_le_add le_rfl ?_)) ?_)) ?_)
  · rw [abs_mul, abs_of_nonneg hA]; exact mul_le_mul_of_nonneg_left hs hA
  · rw [abs_mul, abs_mul, abs_of_nonneg hA]
    exact mul_le_mul_of_nonneg_left hxy (by positivity)
  · rw [abs_mul]; exact mul_le_of_le_one_right (abs_nonneg _) (abs_cos_le_one _)

theorem dd_bound {d : ℝ} (hd : |d| ≤ 109575) : |JupMoons.dd d| ≤ 109576 ∧ |JupMoons.dd d - d| ≤ 0.038 := by
  obtain ⟨-, -, -, -, -, h1, h2⟩ := C142_triangle d
  unfold JupMoons.dd
  have a : 0 ≤ JupMoons.Δ d / 173 := by positivity
  have b : JupMoons.Δ d / 173 ≤ 0.038 := by rw [div_le_iff₀ (by norm_num)]; linarith
  rw [abs_le] at *
  constructor
  · constructor <;> linarith
  · rw [abs_le]; constructor <;> linarith

/-- C152.  The two methods agree.  `Positions` counts u from the inferior conjunction, so u plus the geocentric longitude λ − ψ of Jupiter plus 180° is the
longitude of the satellite.  Within three centuries of J2000, if both use the same time (t is counted from JD 2443000.5) to 0.0002 day, the
longitudes, referred to the equinox of J2000.0, agree to 0.53°, 0.68°, 0.71°, 0.61°; of this 0.33° are the great inequality of Jupiter, which u lacks. -/
theorem C152_longitudes (d t : ℝ) (hd : |d| ≤ 109575) (ht : |t - (JupMoons.dd d + 8544.5)| ≤ 0.0002) :
    let c := JupMoons.lam d - JupMoons.ψ d + π - prec 2451545
    (∃ k : ℤ, |L1 t - (JupMoons.U1 d + c) - k * (2 * π)| ≤ 0.53 * deg) ∧ (∃ k : ℤ, |L2 t - (JupMoons.U2 d + c) - k * (2 * π)| ≤ 0.68 * deg) ∧
    (∃ k : ℤ, |L3 t - (JupMoons.U3 d + c) - k * (2 * π)| ≤ 0.71 * deg) ∧ (∃ k : ℤ, |L4 t - (JupMoons.U4 d + c) - k * (2 * π)| ≤ 0.61 * deg) := by
  intro c
  have D := deg_pos'
  have D2 := Props.jdeg.2.2
  obtain ⟨x1, x2⟩ := dd_bound hd
  obtain ⟨x, hx⟩ : ∃ x, x = JupMoons.dd d := ⟨_, rfl⟩
  obtain ⟨δ, hδ⟩ : ∃ δ, δ = t - (JupMoons.dd d + 8544.5) := ⟨_, rfl⟩
  have hte : t = x + 8544.5 + δ := by rw [hδ, hx]; ring
  rw [← hδ] at ht
  rw [← hx] at x1 x2
  have hv : |0.329 * deg * sin (JupMoons.V d)| ≤ 0.329 * deg := by
    have := tmd (show (0 : ℝ) ≤ 0.329 by norm_num) (abs_sin_le_one (JupMoons.V d))
    rw [abs_le]; constructor <;> linarith [this.1, this.2]
  have hdx : |0.083091 * deg * (x - d)| ≤ 0.0032 * deg := by
    rw [show 0.083091 * deg * (x - d) = (0.083091 * (x - d)) * deg by ring, abs_mul, abs_of_pos D]
    apply mul_le_mul_of_nonneg_right _ D.le
    rw [abs_le] at *; constructor <;> linarith
  have hc : c = (34.35 + 180 - (1.3966626 + 0.0003088 * (18262.577 / 36525)) * (18262.577 / 36525)) * deg + 0.083091 * deg * d + 0.329 * deg * sin (JupMoons.V d) + JupMoons.B d - JupMoons.ψ d := by
    show JupMoons.lam d - JupMoons.ψ d + π - prec 2451545 = _
    unfold JupMoons.lam prec deg
    ring
  have join : ∀ {a b e : ℝ}, |a| ≤ e * deg → |b| ≤ 0.0032 * deg → |a + b - 0.329 * deg * sin (JupMoons.V d)| ≤ (e + 0.3322) * deg := by
    intro a b e h1 h2
    refine (abs_sub _ _).trans ((add_le_add ((abs_add_le _ _).trans (add_le_add h1 h2)) hv).trans ?_)
    linarith
  refine ⟨?_, ?_, ?_, ?_⟩
  · refine ⟨4829, ?_⟩
    have h1 := lin_bound (y := l1 t - (JupMoons.u1 d - JupMoons.ψ d + JupMoons.B d + (34.35 + 180 - (1.3966626 + 0.0003088 * (18262.577 / 36525)) * (18262.577 / 36525)) * deg + 0.083091 * deg * x) - ((4829 : ℤ) : ℝ) * (2 * π))
      (a := (1208255632977094297 / 833797265625000000000)) (b := (19 / 100000000)) (c := (20348895579 / 100000000)) (e := 0.0635) (by
        unfold l1 JupMoons.u1; rw [← hx, hte]; unfold deg; push_cast; ring) x1 ht (by norm_num [abs_of_pos, abs_of_neg])
    have h2 := lin_bound (y := 2 * (l1 t - l2 t) - 2 * (JupMoons.u1 d - JupMoons.u2 d) - ((4848 : ℤ) : ℝ) * (2 * π))
      (a := (-28221 / 200000000)) (b := (-9 / 100000000)) (c := (20422846211 / 100000000)) (e := 0.0513) (by
        unfold l1 l2 JupMoons.u1 JupMoons.u2; rw [← hx, hte]; unfold deg; push_cast; ring) x1 ht (by norm_num [abs_of_pos, abs_of_neg])
    have h3 := sin_near 4848 h2
    have h4 : |series sin (S1l t) - 0.47259 * sin (2 * (l1 t - l2 t))| ≤ 0.0996 := coef_tail abs_sin_le_one (by norm_num)
    have h5 := term_near (c' := 0.473) (g := 0.53) (join h1 hdx) h4 (h3.trans (by linarith)) (by norm_num [abs_of_neg]) (by norm_num [abs_of_pos]) (by norm_num)
    refine le_trans (le_of_eq ?_) h5
    unfold L1 S1 JupMoons.U1
    rw [hc]
    congr 1
    ring
  · refine ⟨2405, ?_⟩
    have h1 := lin_bound (y := l2 t - (JupMoons.u2 d - JupMoons.ψ d + JupMoons.B d + (34.35 + 180 - (1.3966626 + 0.0003088 * (18262.577 / 36525)) * (18262.577 / 36525)) * deg + 0.083091 * deg * x) - ((2405 : ℤ) : ℝ) * (2 * π))
      (a := (2534164229120204219 / 1667594531250000000000)) (b := (47 / 200000000)) (c := (20274944947 / 200000000)) (e := 0.048) (by
        unfold l2 JupMoons.u2; rw [← hx, hte]; unfold deg; push_cast; ring) x1 ht (by norm_num [abs_of_pos, abs_of_neg])
    have h2 := lin_bound (y := 2 * (l2 t - l3 t) - 2 * (JupMoons.u2 d - JupMoons.u3 d) - ((2422 : ℤ) : ℝ) * (2 * π))
      (a := (2249 / 125000000)) (b := (7 / 125000000)) (c := (6382139441 / 62500000)) (e := 0.0271) (by
        unfold l2 l3 JupMoons.u2 JupMoons.u3; rw [← hx, hte]; unfold deg; push_cast; ring) x1 ht (by norm_num [abs_of_pos, abs_of_neg])
    have h3 := sin_near 2422 h2
    have h4 : |series sin (S2l t) - 1.06476 * sin (2 * (l2 t - l3 t))| ≤ 0.2429 := coef_tail abs_sin_le_one (by norm_num)
    have h5 := term_near (c' := 1.065) (g := 0.68) (join h1 hdx) h4 (h3.trans (by linarith)) (by norm_num [abs_of_neg]) (by norm_num [abs_of_pos]) (by norm_num)
    refine le_trans (le_of_eq ?_) h5
    unfold L2 S2 JupMoons.U2
    rw [hc]
    congr 1
    ring
  · refine ⟨1194, ?_⟩
    have h1 := lin_bound (y := l3 t - (JupMoons.u3 d - JupMoons.ψ d + JupMoons.B d + (34.35 + 180 - (1.3966626 + 0.0003088 * (18262.577 / 36525)) * (18262.577 / 36525)) * deg + 0.083091 * deg * x) - ((1194 : ℤ) : ℝ) * (2 * π))
      (a := (2519162548717079219 / 1667594531250000000000)) (b := (207 / 1000000000)) (c := (50317609207 / 1000000000)) (e := 0.0348) (by
        unfold l3 JupMoons.u3; rw [← hx, hte]; unfold deg; push_cast; ring) x1 ht (by norm_num [abs_of_pos, abs_of_neg])
    have h2 := lin_bound (y := l3 t - per3 t - JupMoons.G d - ((1193 : ℤ) : ℝ) * (2 * π))
      (a := (-1785714837 / 2000000000)) (b := (-133 / 1000000000)) (c := (50310481867 / 1000000000)) (e := 0.918) (by
        unfold l3 per3 JupMoons.G; rw [← hx, hte]; unfold deg; push_cast; ring) x1 ht (by norm_num [abs_of_pos, abs_of_neg])
    have h3 := sin_near 1193 h2
    have h4 : |series sin (S3l t) - 0.1649 * sin (l3 t - per3 t)| ≤ 0.2851 := coef_tail abs_sin_le_one (by norm_num)
    have h5 := term_near (c' := 0.165) (g := 0.71) (join h1 hdx) h4 (h3.trans (by linarith)) (by norm_num [abs_of_neg]) (by norm_num [abs_of_pos]) (by norm_num)
    refine le_trans (le_of_eq ?_) h5
    unfold L3 S3 JupMoons.U3
    rw [hc]
    congr 1
    ring
  · refine ⟨511, ?_⟩
    have h1 := lin_bound (y := l4 t - (JupMoons.u4 d - JupMoons.ψ d + JupMoons.B d + (34.35 + 180 - (1.3966626 + 0.0003088 * (18262.577 / 36525)) * (18262.577 / 36525)) * deg + 0.083091 * deg * x) - ((511 : ℤ) : ℝ) * (2 * π))
      (a := (2456902906892860469 / 1667594531250000000000)) (b := (177 / 1000000000)) (c := (21571071177 / 1000000000)) (e := 0.0257) (by
        unfold l4 JupMoons.u4; rw [← hx, hte]; unfold deg; push_cast; ring) x1 ht (by norm_num [abs_of_pos, abs_of_neg])
    have h2 := lin_bound (y := l4 t - per4 t - JupMoons.H d - ((511 : ℤ) : ℝ) * (2 * π))
      (a := (7163753 / 2000000000)) (b := (177 / 1000000000)) (c := (21569231177 / 1000000000)) (e := 0.0278) (by
        unfold l4 per4 JupMoons.H; rw [← hx, hte]; unfold deg; push_cast; ring) x1 ht (by norm_num [abs_of_pos, abs_of_neg])
    have h3 := sin_near 511 h2
    have h4 : |series sin (S4l t) - 0.84287 * sin (l4 t - per4 t)| ≤ 0.1714 := coef_tail abs_sin_le_one (by norm_num)
    have h5 := term_near (c' := 0.843) (g := 0.61) (join h1 hdx) h4 (h3.trans (by linarith)) (by norm_num [abs_of_neg]) (by norm_num [abs_of_pos]) (by norm_num)
    refine le_trans (le_of_eq ?_) h5
    unfold L4 S4 JupMoons.U4
    rw [hc]
    congr 1
    ring

/-- C152.  The distances agree to 0.0008, 0.0081, 0.026 and 0.0131 radii of Jupiter. -/
theorem C152_radii (d t : ℝ) (hd : |d| ≤ 109575) (ht : |t - (JupMoons.dd d + 8544.5)| ≤ 0.0002) :
    |R1 t - JupMoons.r1 d| ≤ 0.0008 ∧ |R2 t - JupMoons.r2 d| ≤ 0.0081 ∧ |R3 t - JupMoons.r3 d| ≤ 0.026 ∧ |R4 t - JupMoons.r4 d| ≤ 0.0131 := by
  have D := deg_pos'
  have D2 := Props.jdeg.2.2
  obtain ⟨x1, x2⟩ := dd_bound hd
  obtain ⟨x, hx⟩ : ∃ x, x = JupMoons.dd d := ⟨_, rfl⟩
  obtain ⟨δ, hδ⟩ : ∃ δ, δ = t - (JupMoons.dd d + 8544.5) := ⟨_, rfl⟩
  have hte : t = x + 8544.5 + δ := by rw [hδ, hx]; ring
  rw [← hδ] at ht
  rw [← hx] at x1 x2
  refine ⟨?_, ?_, ?_, ?_⟩
  · have h2 := lin_bound (y := 2 * (l1 t - l2 t) - 2 * (JupMoons.u1 d - JupMoons.u2 d) - ((4848 : ℤ) : ℝ) * (2 * π))
      (a := (-28221 / 200000000)) (b := (-9 / 100000000)) (c := (20422846211 / 100000000)) (e := 0.0513) (by
        unfold l1 l2 JupMoons.u1 JupMoons.u2; rw [← hx, hte]; unfold deg; push_cast; ring) x1 ht (by norm_num [abs_of_pos, abs_of_neg])
    have h3 : |cos (2 * (l1 t - l2 t)) - 1 * cos (2 * (JupMoons.u1 d - JupMoons.u2 d))| ≤ 0.000905 := by
      have := cos_near 4848 h2
      rw [show 1 * cos (2 * (JupMoons.u1 d - JupMoons.u2 d)) = cos (2 * (JupMoons.u1 d - JupMoons.u2 d)) by ring]
      exact this.trans (by linarith)
    have h4 : |series cos (R1l t) - (-0.0041339) * cos (2 * (l1 t - l2 t))| ≤ 0.000109 := coef_tail abs_cos_le_one (by norm_num)
    have h5 := radius_near (A' := 5.9057) (c' := -0.0244) (g := 0.0008) (show R1 t = 5.90569 * (1 + series cos (R1l t)) from rfl) h4 h3 (by norm_num) (by norm_num [abs_of_pos, abs_of_neg])
    refine le_trans (le_of_eq ?_) h5
    unfold JupMoons.r1
    congr 1
    ring
  · have h2 := lin_bound (y := l1 t - l2 t - (2 * (JupMoons.u2 d - JupMoons.u3 d) + π) - ((2421 : ℤ) : ℝ) * (2 * π))
      (a := (11779 / 400000000)) (b := (11 / 200000000)) (c := (20422846211 / 200000000)) (e := 0.027) (by
        unfold l1 l2 JupMoons.u2 JupMoons.u3; rw [← hx, hte]; unfold deg; push_cast; ring) x1 ht (by norm_num [abs_of_pos, abs_of_neg])
    have h3 : |cos (l1 t - l2 t) - -1 * cos (2 * (JupMoons.u2 d - JupMoons.u3 d))| ≤ 0.000481 := by
      have := cos_near 2421 h2
      rw [cos_add_pi] at this
      rw [show -1 * cos (2 * (JupMoons.u2 d - JupMoons.u3 d)) = -cos (2 * (JupMoons.u2 d - JupMoons.u3 d)) by ring]
      exact this.trans (by linarith)
    have h4 : |series cos (R2l t) - (0.0093848) * cos (l1 t - l2 t)| ≤ 0.000814 := coef_tail abs_cos_le_one (by norm_num)
    have h5 := radius_near (A' := 9.3966) (c' := -0.0882) (g := 0.0081) (show R2 t = 9.39657 * (1 + series cos (R2l t)) from rfl) h4 h3 (by norm_num) (by norm_num [abs_of_pos, abs_of_neg])
    refine le_trans (le_of_eq ?_) h5
    unfold JupMoons.r2
    congr 1
    ring
  · have h2 := lin_bound (y := l3 t - per3 t - JupMoons.G d - ((1193 : ℤ) : ℝ) * (2 * π))
      (a := (-1785714837 / 2000000000)) (b := (-133 / 1000000000)) (c := (50310481867 / 1000000000)) (e := 0.918) (by
        unfold l3 per3 JupMoons.G; rw [← hx, hte]; unfold deg; push_cast; ring) x1 ht (by norm_num [abs_of_pos, abs_of_neg])
    have h3 : |cos (l3 t - per3 t) - 1 * cos (JupMoons.G d)| ≤ 0.016033 := by
      have := cos_near 1193 h2
      rw [show 1 * cos (JupMoons.G d) = cos (JupMoons.G d) by ring]
      exact this.trans (by linarith)
    have h4 : |series cos (R3l t) - (-0.0014388) * cos (l3 t - per3 t)| ≤ 0.001691 := coef_tail abs_cos_le_one (by norm_num)
    have h5 := radius_near (A' := 14.9883) (c' := -0.0216) (g := 0.026) (show R3 t = 14.98832 * (1 + series cos (R3l t)) from rfl) h4 h3 (by norm_num) (by norm_num [abs_of_pos, abs_of_neg])
    refine le_trans (le_of_eq ?_) h5
    unfold JupMoons.r3
    congr 1
    ring
  · have h2 := lin_bound (y := l4 t - per4 t - JupMoons.H d - ((511 : ℤ) : ℝ) * (2 * π))
      (a := (7163753 / 2000000000)) (b := (177 / 1000000000)) (c := (21569231177 / 1000000000)) (e := 0.0278) (by
        unfold l4 per4 JupMoons.H; rw [← hx, hte]; unfold deg; push_cast; ring) x1 ht (by norm_num [abs_of_pos, abs_of_neg])
    have h3 : |cos (l4 t - per4 t) - 1 * cos (JupMoons.H d)| ≤ 0.000495 := by
      have := cos_near 511 h2
      rw [show 1 * cos (JupMoons.H d) = cos (JupMoons.H d) by ring]
      exact this.trans (by linarith)
    have h4 : |series cos (R4l t) - (-0.0073546) * cos (l4 t - per4 t)| ≤ 0.00048 := coef_tail abs_cos_le_one (by norm_num)
    have h5 := radius_near (A' := 26.3627) (c' := -0.1939) (g := 0.0131) (show R4 t = 26.36273 * (1 + series cos (R4l t)) from rfl) h4 h3 (by norm_num) (by norm_num [abs_of_pos, abs_of_neg])
    refine le_trans (le_of_eq ?_) h5
    unfold JupMoons.r4
    congr 1
    ring

/-- The hypotheses of C152 hold at J2000.0. -/
example : |(0 : ℝ)| ≤ 109575 ∧ |JupMoons.dd 0 + 8544.5 - (JupMoons.dd 0 + 8544.5)| ≤ 0.0002 := by norm_num

/-- The bound of C151_never_together cannot be much improved: the mean longitudes come within 31° of one direction. -/
example : ∃ a : ℝ, ∃ l₁ l₂ l₃ : ℝ, l₁ - 3 * l₂ + 2 * l₃ = 180 ∧ |l₁ - a| ≤ 31 ∧ |l₂ - a| ≤ 31 ∧ |l₃ - a| ≤ 31 :=
  ⟨0, 30, -30, 30, by norm_num, by norm_num, by norm_num, by norm_num⟩

end Verif.Props.JupE5
