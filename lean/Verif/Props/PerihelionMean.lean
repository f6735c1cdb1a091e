import Verif.Props.Perihelion
import Verif.Props.MoonArgs
import Verif.Model.Deltat
/-
C175: the dates of package perihelion against the mean anomalies of packages planetelements and solar.
-/
namespace Verif.Props

open Real Verif.Spec Verif.Go Verif.Model Verif.Lemmas Verif.Lemmas.PolyQ

/-- The mean anomaly of planet `p` by planetelements, longitude less longitude of the perihelion, is `off` up to whole turns and `tol` degrees. -/
def MeanAnomalyIs (p : ℕ) (off tol jde : ℝ) : Prop :=
  ∃ E, PlanetElements.Mean p jde = some E ∧ Congr (E.Lon - E.Peri) off tol

/-- Mean longitudes and longitudes of the perihelia (planetelements), dates of the perihelia (perihelion), as rational polynomials; the third planet is left out. -/
def pmL : ℕ → List ℚ
  | 0 => [252.250906, 149474.0722491, 0.0003035, 0.000000018]
  | 1 => [181.979801, 58519.2130302, 0.00031014, 0.000000015]
  | 3 => [355.433, 19141.6964471, 0.00031052, 0.000000016]
  | 4 => [34.351519, 3036.3027748, 0.0002233, 0.000000037]
  | 5 => [50.077444, 1223.5110686, 0.00051908, -0.00000003]
  | 6 => [314.055005, 429.8640561, 0.0003039, 0.000000026]
  | 7 => [304.348665, 219.8833092, 0.00030882, 0.000000018]
  | _ => []
def pmW : ℕ → List ℚ
  | 0 => [77.456119, 1.5564776, 0.00029544, 0.000000009]
  | 1 => [131.563703, 1.4022288, -0.00107618, -0.000005678]
  | 3 => [336.060234, 1.8410449, 0.00013477, 0.000000536]
  | 4 => [14.331207, 1.6126352, 0.00103042, -0.000004464]
  | 5 => [93.057237, 1.9637613, 0.00083753, 0.000004928]
  | 6 => [173.005291, 1.486379, 0.00021406, 0.000000434]
  | 7 => [48.120276, 1.4262957, 0.00038434, 0.00000002]
  | _ => []
def pmC : ℕ → List ℚ
  | 0 => [2451590.257, 87.96934963]
  | 1 => [2451738.233, 224.7008188, -0.0000000327]
  | 2 => [2451547.507, 365.2596358, 0.0000000156]
  | 3 => [2452195.026, 686.9957857, -0.0000001187]
  | 4 => [2455636.936, 4332.897065, 0.0001367]
  | 5 => [2452830.12, 10764.21676, 0.000827]
  | 6 => [2470213.5, 30694.8767, -0.00541]
  | 7 => [2468895.1, 60190.33, 0.03429]
  | _ => []

/-- From the polynomials to the planet. -/
theorem perihelion_anomaly_of (p : ℕ) {m : ℤ} {R ε : ℚ} (hR : 0 < R) (h : l1 (pcomp (resid (padd (pmL p) (psc (-1) (pmW p))) (pmC p) [0, 360] m) [0, R]) ≤ ε)
    {k j : ℝ} (hk : |k| ≤ R) (hj : j = ev (pmC p) k)
    (hE : ∃ E, PlanetElements.Mean p j = some E ∧ E.Lon = mod1 (deg * ev (pmL p) (J2000Century j)) ∧ E.Peri = deg * ev (pmW p) (J2000Century j)) :
    MeanAnomalyIs p (k * (2 * π)) ε j := by
  obtain ⟨E, h1, h2, h3⟩ := hE
  refine ⟨E, h1, ?_⟩
  obtain ⟨-, -, q, hq⟩ := mod1_eq (deg * ev (pmL p) (J2000Century j))
  obtain ⟨n, hn⟩ := congr_of (a := deg * ev (pmL p) (J2000Century j) - deg * ev (pmW p) (J2000Century j)) (b := k * (2 * π)) hR h hk hj
    (by rw [ev_padd, ev_psc]; push_cast; ring) (by simp only [ev]; push_cast; unfold deg; ring)
  refine ⟨n - q, ?_⟩
  rw [h2, h3]
  refine le_trans (le_of_eq ?_) hn
  congr 1
  push_cast
  linarith

/-- What the two packages return. -/
theorem mean_returns (p : ℕ) (hp : p ∈ [0, 1, 3, 4, 5, 6, 7]) (j : ℝ) :
    ∃ E, PlanetElements.Mean p j = some E ∧ E.Lon = mod1 (deg * ev (pmL p) (J2000Century j)) ∧ E.Peri = deg * ev (pmW p) (J2000Century j) := by
  fin_cases hp <;>
  · refine ⟨_, by simp [PlanetElements.Mean, PlanetElements.cMean, Horner]; rfl, ?_, ?_⟩
    · simp only [PlanetElements.angleFromDeg, pmL, ev]
      congr 1; push_cast; ring
    · simp only [PlanetElements.angleFromDeg, pmW, ev]
      push_cast; ring

theorem dates_return (p : ℕ) (hp : p ∈ [0, 1, 3, 4, 5, 6, 7]) (k : ℝ) (a : Bool) : Perihelion.apK p k a = some (ev (pmC p) k) := by
  fin_cases hp <;>
  · simp [Perihelion.apK, Perihelion.coef, Horner, pmC, ev]
    try ring

/-- The bound in degrees for each planet. -/
def pmE : ℕ → ℚ
  | 0 => 24 / 10000
  | 1 => 67 / 10000
  | 3 => 8 / 10000
  | 4 => 68 / 10000
  | 5 => 58 / 10000
  | 6 => 20 / 10000
  | _ => 11 / 10000
/-- Number of events in the thousand years. -/
def pmR : ℕ → ℚ
  | 0 => 4155
  | 1 => 1628
  | 3 => 535
  | 4 => 86
  | 5 => 35
  | 6 => 131 / 10
  | _ => 7

theorem pm_l1 : ∀ p ∈ [0, 1, 3, 4, 5, 6, 7],
    l1 (pcomp (resid (padd (pmL p) (psc (-1) (pmW p))) (pmC p) [0, 360] (if p = 5 then 0 else 1)) [0, pmR p]) ≤ pmE p := by decide +kernel

/-- The number of the event, from the year. -/
theorem event_number (p : ℕ) (hp : p ∈ [0, 1, 3, 4, 5, 6, 7]) (y : ℝ) (hy : |y - 2000| ≤ 1000) (a : Bool) (f : ℝ → ℝ) (hf : ∀ x, |f x - x| ≤ 1 / 2) :
    ∃ x, Perihelion.ap p y a f = Perihelion.apK p (f x) a ∧ |f x| ≤ pmR p := by
  rw [abs_le] at hy
  have key : ∀ (c d R : ℝ), 0 < c → c * (|2000 - d| + 1000) + 1 / 2 ≤ R → |f (c * (y - d))| ≤ R := by
    intro c d R hc hR
    have h := hf (c * (y - d))
    have h2 : |c * (y - d)| ≤ c * (|2000 - d| + 1000) := by
      rw [abs_mul, abs_of_pos hc]
      refine mul_le_mul_of_nonneg_left ?_ hc.le
      calc |y - d| = |(y - 2000) + (2000 - d)| := by ring_nf
        _ ≤ |y - 2000| + |2000 - d| := abs_add_le _ _
        _ ≤ _ := by have : |y - 2000| ≤ 1000 := abs_le.2 hy
                    linarith
    calc |f (c * (y - d))| = |(f (c * (y - d)) - c * (y - d)) + c * (y - d)| := by ring_nf
      _ ≤ _ := abs_add_le _ _
      _ ≤ _ := by linarith
  have fin : ∀ (c d : ℝ), Perihelion.ka[p]? = some (c, d) → p ≠ 8 → 0 < c → c * (|2000 - d| + 1000) + 1 / 2 ≤ pmR p →
      ∃ x, Perihelion.ap p y a f = Perihelion.apK p (f x) a ∧ |f x| ≤ pmR p := by
    intro c d h1 h8 h2 h3
    refine ⟨c * (y - d), ?_, key c d _ h2 h3⟩
    unfold Perihelion.ap
    simp only [if_neg h8, h1]
  fin_cases hp
  · exact fin 4.15201 2000.12 (by simp [Perihelion.ka]) (by norm_num) (by norm_num) (by rw [abs_of_neg (by norm_num)]; norm_num [pmR])
  · exact fin 1.62549 2000.53 (by simp [Perihelion.ka]) (by norm_num) (by norm_num) (by rw [abs_of_neg (by norm_num)]; norm_num [pmR])
  · exact fin 0.53166 2001.78 (by simp [Perihelion.ka]) (by norm_num) (by norm_num) (by rw [abs_of_neg (by norm_num)]; norm_num [pmR])
  · exact fin 0.0843 2011.2 (by simp [Perihelion.ka]) (by norm_num) (by norm_num) (by rw [abs_of_neg (by norm_num)]; norm_num [pmR])
  · exact fin 0.03393 2003.52 (by simp [Perihelion.ka]) (by norm_num) (by norm_num) (by rw [abs_of_neg (by norm_num)]; norm_num [pmR])
  · exact fin 0.0119 2051.1 (by simp [Perihelion.ka]) (by norm_num) (by norm_num) (by rw [abs_of_neg (by norm_num)]; norm_num [pmR])
  · exact fin 0.00607 2047.5 (by simp [Perihelion.ka]) (by norm_num) (by norm_num) (by rw [abs_of_neg (by norm_num)]; norm_num [pmR])

/-- **C175.**  At the dates of package perihelion the mean anomaly of the planet by planetelements is 0° at the perihelion and 180° at the aphelion, for all
planets but the Earth and the years 1000 to 3000: within 0.0024° for Mercury, 0.0067° Venus, 0.0008° Mars, 0.0068° Jupiter, 0.0058° Saturn, 0.0020° Uranus
and 0.0011° Neptune. -/
theorem C175_planets (p : ℕ) (hp : p ∈ [0, 1, 3, 4, 5, 6, 7]) (y : ℝ) (hy : |y - 2000| ≤ 1000) :
    (∃ j, Perihelion.Perihelion p y = some j ∧ MeanAnomalyIs p 0 (pmE p) j) ∧
    (∃ j, Perihelion.Aphelion p y = some j ∧ MeanAnomalyIs p π (pmE p) j) := by
  have hR : 0 < pmR p := by revert p; decide +kernel
  constructor
  · obtain ⟨x, h1, h2⟩ := event_number p hp y hy false Perihelion.pf (fun x => (C89_nearest_number x).2.1)
    obtain ⟨n, hn⟩ := (C89_nearest_number x).1
    refine ⟨_, h1.trans (dates_return p hp _ _), ?_⟩
    obtain ⟨E, e1, e2⟩ := perihelion_anomaly_of p hR (pm_l1 p hp) h2 rfl (mean_returns p hp _)
    refine ⟨E, e1, congr_turns n ?_⟩
    rwa [zero_add, ← hn]
  · obtain ⟨x, h1, h2⟩ := event_number p hp y hy true Perihelion.af (fun x => (C89_nearest_number x).2.2.2)
    obtain ⟨n, hn⟩ := (C89_nearest_number x).2.2.1
    refine ⟨_, h1.trans (dates_return p hp _ _), ?_⟩
    obtain ⟨E, e1, e2⟩ := perihelion_anomaly_of p hR (pm_l1 p hp) h2 rfl (mean_returns p hp _)
    refine ⟨E, e1, congr_turns n ?_⟩
    rwa [show π + n * (2 * π) = Perihelion.af x * (2 * π) by rw [hn]; ring]

/-! The Earth: planetelements has no node for it and `Mean` panics (C76); the anomaly is that of package solar. -/

def pmS : List ℚ := [357.52911, 35999.05029, -0.0001537]

theorem pmS_l1 : l1 (pcomp (resid pmS (pmC 2) [0, 360] 1) [0, 1002]) ≤ 7 / 100000 := by decide +kernel

/-- The event of the Earth-Moon barycentre. -/
theorem embary_anomaly {k : ℝ} (hk : |k| ≤ 1002) : Congr (Solar.MeanAnomaly (J2000Century (ev (pmC 2) k))) (k * (2 * π)) (7 / 100000) := by
  have := congr_of (a := Solar.MeanAnomaly (J2000Century (ev (pmC 2) k))) (b := k * (2 * π)) (by norm_num) pmS_l1 (by push_cast; exact hk) rfl
    (by simp only [Solar.MeanAnomaly, hornerR, List.foldr, ev, pmS]; push_cast; ring) (by simp only [ev]; push_cast; unfold deg; ring)
  push_cast at this; exact this

theorem event_number_earth (p : ℕ) (hp : p = 2 ∨ p = 8) (y : ℝ) (hy : |y - 2000| ≤ 1000) (a : Bool) (f : ℝ → ℝ) (hf : ∀ x, |f x - x| ≤ 1 / 2) :
    ∃ x, Perihelion.ap p y a f = Perihelion.apK p (f x) a ∧ |f x| ≤ 1002 := by
  have h := hf (0.99997 * (y - 2000.01))
  refine ⟨0.99997 * (y - 2000.01), ?_, ?_⟩
  · rcases hp with rfl | rfl <;> simp [Perihelion.ap, Perihelion.ka]
  · rw [abs_le] at *
    norm_num at *
    constructor <;> linarith

/-- **C175.**  At the perihelia and aphelia of the barycentre of the Earth and the Moon the mean anomaly of the Sun by package solar is 0° and 180°
within 0.00007°; the corrections for the Earth itself leave it within 1.53°. -/
theorem C175_earth (y : ℝ) (hy : |y - 2000| ≤ 1000) :
    (∃ j, Perihelion.Perihelion 8 y = some j ∧ Congr (Solar.MeanAnomaly (J2000Century j)) 0 (7 / 100000)) ∧
    (∃ j, Perihelion.Aphelion 8 y = some j ∧ Congr (Solar.MeanAnomaly (J2000Century j)) π (7 / 100000)) ∧
    (∃ j, Perihelion.Perihelion 2 y = some j ∧ Congr (Solar.MeanAnomaly (J2000Century j)) 0 1.53) ∧
    (∃ j, Perihelion.Aphelion 2 y = some j ∧ Congr (Solar.MeanAnomaly (J2000Century j)) π 1.53) := by
  have hb : ∀ k a, Perihelion.apK 8 k a = some (ev (pmC 2) k) := by
    intro k a; simp [Perihelion.apK, Perihelion.coef, Horner, pmC, ev]; ring
  have he : ∀ k a, |k| ≤ 1002 → ∃ j, Perihelion.apK 2 k a = some j ∧ Congr (Solar.MeanAnomaly (J2000Century j)) (k * (2 * π)) 1.53 := by
    intro k a hk
    have h := earth_terms a k (ev (pmC 2) k)
    obtain ⟨j, hj⟩ : ∃ j, j = (List.zip (if a then Perihelion.ea else Perihelion.ep) Perihelion.ec).foldl
      (fun j t => j + t.1 * Real.sin ((t.2.1 + t.2.2 * k) * Real.pi / 180)) (ev (pmC 2) k) := ⟨_, rfl⟩
    rw [← hj] at h
    refine ⟨j, ?_, ?_⟩
    · have e : Perihelion.apK 2 k a = some ((List.zip (if a then Perihelion.ea else Perihelion.ep) Perihelion.ec).foldl
          (fun j t => j + t.1 * Real.sin ((t.2.1 + t.2.2 * k) * Real.pi / 180)) ((0.0000000156 * k + 365.2596358) * k + 2451547.507)) := by
        simp [Perihelion.apK, Perihelion.coef, Horner]
      rw [e, hj]
      congr 2
      simp only [pmC, ev]; push_cast; ring
    · obtain ⟨m, hm⟩ := embary_anomaly hk
      refine ⟨m, ?_⟩
      have hd : 0 < deg := by unfold deg; positivity
      have hc : |ev (pmC 2) k - 2451545| ≤ 366100 := by
        simp only [pmC, ev]; push_cast
        rw [abs_le] at hk ⊢
        have k2 : k ^ 2 ≤ 1005000 := by nlinarith
        have k0 := sq_nonneg k
        norm_num at *
        constructor <;> nlinarith
      generalize ev (pmC 2) k = c at *
      have e : Solar.MeanAnomaly (J2000Century j) - Solar.MeanAnomaly (J2000Century c) =
          deg * ((j - c) * ((35999.05029 - 0.0001537 * ((j - 2451545) + (c - 2451545)) / 36525) / 36525)) := by
        simp only [Solar.MeanAnomaly, hornerR, List.foldr, J2000Century]; ring
      have b : |(j - c) * ((35999.05029 - 0.0001537 * ((j - 2451545) + (c - 2451545)) / 36525) / 36525)| ≤ 1.54 * 0.987 := by
        rw [abs_mul]
        refine mul_le_mul h ?_ (abs_nonneg _) (by norm_num)
        rw [abs_le] at h hc ⊢
        norm_num at *
        constructor <;> linarith
      have b' := mul_le_mul_of_nonneg_left b hd.le
      rw [← abs_of_pos hd, ← abs_mul, ← e, abs_of_pos hd] at b'
      rw [abs_le] at *
      constructor <;> linarith
  have P : ∀ x, ∃ n : ℤ, Perihelion.pf x = n := fun x => (C89_nearest_number x).1
  have A : ∀ x, ∃ n : ℤ, Perihelion.af x = n + 1 / 2 := fun x => (C89_nearest_number x).2.2.1
  refine ⟨?_, ?_, ?_, ?_⟩
  · obtain ⟨x, h1, h2⟩ := event_number_earth 8 (Or.inr rfl) y hy false Perihelion.pf (fun x => (C89_nearest_number x).2.1)
    obtain ⟨n, hn⟩ := P x
    refine ⟨_, h1.trans (hb _ _), congr_turns n ?_⟩
    rw [zero_add, ← hn]; exact embary_anomaly h2
  · obtain ⟨x, h1, h2⟩ := event_number_earth 8 (Or.inr rfl) y hy true Perihelion.af (fun x => (C89_nearest_number x).2.2.2)
    obtain ⟨n, hn⟩ := A x
    refine ⟨_, h1.trans (hb _ _), congr_turns n ?_⟩
    rw [show π + n * (2 * π) = Perihelion.af x * (2 * π) by rw [hn]; ring]; exact embary_anomaly h2
  · obtain ⟨x, h1, h2⟩ := event_number_earth 2 (Or.inl rfl) y hy false Perihelion.pf (fun x => (C89_nearest_number x).2.1)
    obtain ⟨n, hn⟩ := P x
    obtain ⟨j, j1, j2⟩ := he _ false h2
    refine ⟨j, h1.trans j1, congr_turns n ?_⟩
    rwa [zero_add, ← hn]
  · obtain ⟨x, h1, h2⟩ := event_number_earth 2 (Or.inl rfl) y hy true Perihelion.af (fun x => (C89_nearest_number x).2.2.2)
    obtain ⟨n, hn⟩ := A x
    obtain ⟨j, j1, j2⟩ := he _ true h2
    refine ⟨j, h1.trans j1, congr_turns n ?_⟩
    rwa [show π + n * (2 * π) = Perihelion.af x * (2 * π) by rw [hn]; ring]

/-- For instance the perihelion of Jupiter near 2011.2. -/
example : ∃ j, Perihelion.Perihelion 4 2011.2 = some j ∧ MeanAnomalyIs 4 0 (pmE 4) j := (C175_planets 4 (by simp) 2011.2 (by norm_num [abs_le])).1

end Verif.Props
