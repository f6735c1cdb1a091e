import Verif.Props.PrecessRoutes
import Verif.Props.SaturnRing
import Verif.Props.SaturnMoons
import Verif.Props.Jupiter
import Verif.Props.Solar
/-
C181: the axes of Saturn's ring, of Jupiter and of the Sun keep their direction in space.
-/
namespace Verif.Props

open Real Verif.Spec Verif.Go Verif.Model Verif.Model.Precess Verif.Lemmas Verif.Lemmas.TM

/-- The inclination of the ring, its node less 180 degrees, the pole of Jupiter from the pole of the equator, its right ascension less 270 degrees. -/
def xRi (T : Ex) : Ex := .mul (.add (.const 28075216 1000000) (.mul (.add (.const (-12998) 1000000) (.mul (.const 4 1000000) T)) T)) .degree
def xRn (T : Ex) : Ex := .mul (.add (.const (-1049153) 100000) (.mul (.add (.const 1394681 1000000) (.mul (.const 412 1000000) T)) T)) .degree
def xJc (T : Ex) : Ex := .mul (.add (.const 255082 10000) (.mul (.const 164 10000) T)) .degree
def xJa (T : Ex) : Ex := .mul (.add (.const (-194695) 100000) (.mul (.const 1061 10000) T)) .degree

/-- The pole of a plane: sine and cosine of the inclination are the atoms i, i + 1, of the node i + 2, i + 3. -/
def xPole (i : ℕ) : Ex3 := Ex3.rz (.atom (i + 2)) (.atom (i + 3)) (Ex3.rx (.atom i) (.atom (i + 1)) Ex3.e2)
/-- The same, the node turned by 180 degrees. -/
def xPole' (i : ℕ) : Ex3 := Ex3.rz (Ex.atom (i + 2)).neg (Ex.atom (i + 3)).neg (Ex3.rx (.atom i) (.atom (i + 1)) Ex3.e2)

def angS : List Ex := aL (xT 2) (xt 2) ++ [xRi (xT 2), xRn (xT 2), xRi (xT' 2), xRn (xT' 2)]
def angJ : List Ex := aE (xT 2) (xt 2) ++ [xJc (xT 2), xJa (xT 2), xJc (xT' 2), xJa (xT' 2)]

def difS : Ex3 := (xL 0 (xPole' 6)).sub (xPole' 10)
def difJ : Ex3 := (xE 0 (xPole 6)).sub (xPole 10)

def mS0 : TM.M × TM.M := (⟨[[470630262249869546], [-400327293497013], [197951657154], [73364587], [-42881], [13], [-1]], 6040⟩,
    ⟨[[882330525514457659], [213532382339857], [-222242169756], [104466245], [-19317], [-12], [1]], 6024⟩)
def mS1 : TM.M × TM.M := (⟨[[-182090169530549245], [47869651370002170], [244067035904907], [-18654237066072], [-76059382070], [2120303594],
    [9893452]], 127328⟩, ⟨[[983281836586202704], [8864796042195391], [-1159994840942938], [-4878600677906], [223528571809], [955189083], [-16474752]],
    93511⟩)
def mS2 : TM.M × TM.M := (⟨[[470630262249869546, -400327293497013, 197951657154, 73364587, -42881, 13, -1]], 6040⟩, ⟨[[882330525514457659,
    213532382339857, -222242169756, 104466245, -19317, -12, 1]], 6024⟩)
def mS3 : TM.M × TM.M := (⟨[[-182090169530549245, 47869651370002170, 244067035904907, -18654237066072, -76059382070, 2120303594, 9893452]], 127328⟩,
    ⟨[[983281836586202704, 8864796042195391, -1159994840942938, -4878600677906, 223528571809, 955189083, -16474752]], 93511⟩)
def mJ0 : TM.M × TM.M := (⟨[[430640267695821733], [516665910712924], [-70564629192], [-28220258], [1927], [0], [0]], 6033⟩, ⟨[[902523661650414016],
    [-246527770465148], [-147887348905], [13465331], [4039], [0], [0]], 6020⟩)
def mJ1 : TM.M × TM.M := (⟨[[-33974148738652060], [3701450635352827], [233004378659], [-8461867209], [-266336], [5803], [0]], 6009⟩,
    ⟨[[999422711978011808], [125826272434183], [-6854325322884], [-287650792], [7834819], [198], [-3]], 6005⟩)
def mJ2 : TM.M × TM.M := (⟨[[430640267695821733, 516665910712924, -70564629192, -28220258, 1927, 0, 0]], 6033⟩, ⟨[[902523661650414016,
    -246527770465148, -147887348905, 13465331, 4039, 0, 0]], 6020⟩)
def mJ3 : TM.M × TM.M := (⟨[[-33974148738652060, 3701450635352827, 233004378659, -8461867209, -266336, 5803, 0]], 6009⟩, ⟨[[999422711978011808,
    125826272434183, -6854325322884, -287650792, 7834819, 198, -3]], 6005⟩)

set_option maxRecDepth 100000

theorem cmS0 : checkAngles [xRi (xT 2)] [mS0] = true := by decide +kernel
theorem cmS1 : checkAngles [xRn (xT 2)] [mS1] = true := by decide +kernel
theorem cmS2 : checkAngles [xRi (xT' 2)] [mS2] = true := by decide +kernel
theorem cmS3 : checkAngles [xRn (xT' 2)] [mS3] = true := by decide +kernel
theorem cmJ0 : checkAngles [xJc (xT 2)] [mJ0] = true := by decide +kernel
theorem cmJ1 : checkAngles [xJa (xT 2)] [mJ1] = true := by decide +kernel
theorem cmJ2 : checkAngles [xJc (xT' 2)] [mJ2] = true := by decide +kernel
theorem cmJ3 : checkAngles [xJa (xT' 2)] [mJ3] = true := by decide +kernel

def litS : List (TM.M × TM.M) := [mL0, mL1, mL2] ++ [mS0, mS1, mS2, mS3]
def litJ : List (TM.M × TM.M) := [mE0, mE1, mE2] ++ [mJ0, mJ1, mJ2, mJ3]

theorem caS : checkAngles angS litS = true :=
  checkAngles_append rfl ceL (checkAngles_cons cmS0 (checkAngles_cons cmS1 (checkAngles_cons cmS2 cmS3)))
theorem caJ : checkAngles angJ litJ = true :=
  checkAngles_append rfl ceE (checkAngles_cons cmJ0 (checkAngles_cons cmJ1 (checkAngles_cons cmJ2 cmJ3)))

def kSb : ℤ := 120718606596
def kJb : ℤ := 435847499317472
theorem okS : difS.ok (σL litS) = true := by decide +kernel
theorem okJ : difJ.ok (σL litJ) = true := by decide +kernel
theorem kS : difS.bd (σL litS) ≤ kSb ^ 2 := by decide +kernel
theorem kJ : difJ.bd (σL litJ) ≤ kJb ^ 2 := by decide +kernel

theorem vv_e2 (ρ : ℕ → ℝ → ℝ → ℝ) (x y : ℝ) : vv ρ Ex3.e2 x y = !₂[0, 0, 1] := by unfold vv Ex3.e2; simp [Ex.val]

theorem vv_xPole {ρ : ℕ → ℝ → ℝ → ℝ} {i : ℕ} {a b x y : ℝ} (h0 : ρ i x y = sin a) (h1 : ρ (i + 1) x y = cos a) (h2 : ρ (i + 2) x y = sin b)
    (h3 : ρ (i + 3) x y = cos b) : vv ρ (xPole i) x y = planePole a b := by
  unfold xPole planePole
  rw [vv_rz (ρ := ρ) (s := .atom (i + 2)) (c := .atom (i + 3)) (a := b) h2 h3, vv_rx (ρ := ρ) (s := .atom i) (c := .atom (i + 1)) (a := a) h0 h1, vv_e2]

theorem vv_xPole' {ρ : ℕ → ℝ → ℝ → ℝ} {i : ℕ} {a b x y : ℝ} (h0 : ρ i x y = sin a) (h1 : ρ (i + 1) x y = cos a) (h2 : ρ (i + 2) x y = sin b)
    (h3 : ρ (i + 3) x y = cos b) : vv ρ (xPole' i) x y = planePole a (b + π) := by
  unfold xPole' planePole
  rw [vv_rz (ρ := ρ) (s := (Ex.atom (i + 2)).neg) (c := (Ex.atom (i + 3)).neg) (a := b + π)
    (by rw [Ex.val_neg, sin_add_pi]; exact congrArg Neg.neg h2) (by rw [Ex.val_neg, cos_add_pi]; exact congrArg Neg.neg h3),
    vv_rx (ρ := ρ) (s := .atom i) (c := .atom (i + 1)) (a := a) h0 h1, vv_e2]

theorem norm_units {ρ : ℕ → ℝ → ℝ → ℝ} {σ : ℕ → TM.M} (hσ : ∀ i, Holds (σ i) (ρ i)) {v w : Ex3} (h : (v.sub w).ok σ = true) {B : ℤ} (hB : 0 ≤ B)
    (hb : (v.sub w).bd σ ≤ B ^ 2) {x y : ℝ} (hx : |x| ≤ 1) (hy : |y| ≤ 1) : ‖vv ρ v x y - vv ρ w x y‖ ≤ (B : ℝ) / TM.S := by
  have := norm_vv hσ h hx hy
  rw [vv_sub] at this
  rw [le_div_iff₀ TM.S_pos, mul_comm]
  refine abs_le_of_sq_le_sq' (this.trans (by exact_mod_cast hb)) (by exact_mod_cast hB) |>.2

theorem inner_rotL (e1 e2 : ℝ) (u v : V3) : inner ℝ (rotL e1 e2 u) (rotL e1 e2 v) = inner ℝ u v := by
  unfold rotL; rw [inner_rotZ, inner_rotX, inner_rotZ]

theorem inner_rotE (e1 e2 : ℝ) (u v : V3) : inner ℝ (rotE e1 e2 u) (rotE e1 e2 v) = inner ℝ u v := by
  unfold rotE; rw [inner_rotZ, inner_rotY, inner_rotZ]

theorem year_century (jde : ℝ) : (JDEToJulianYear jde - 2000) / 100 = J2000Century jde := by
  unfold JDEToJulianYear J2000Century; ring

/-- The axis of the ring at two dates. -/
theorem ring_axis {j1 j2 : ℝ} (h1 : |JDEToJulianYear j1 - 2000| ≤ 200) (h2 : |JDEToJulianYear j2 - 2000| ≤ 200) :
    ‖rotL (JDEToJulianYear j1) (JDEToJulianYear j2) (planePole (PlanetPhys.Ring.inc j1) (PlanetPhys.Ring.node j1)) -
      planePole (PlanetPhys.Ring.inc j2) (PlanetPhys.Ring.node j2)‖ ≤ 0.025 * (π / 180 / 3600) := by
  have hx := epochs (k := 2) (by norm_num) (e := JDEToJulianYear j1) (by norm_num; exact h1)
  have hy := epochs (k := 2) (by norm_num) (e := JDEToJulianYear j2) (by norm_num; exact h2)
  obtain ⟨v1, v2, v3⟩ := xT_val (k := 2) (by norm_num) (JDEToJulianYear j1) (JDEToJulianYear j2)
  have h := norm_units (holdsL _ _ rfl caS) (v := xL 0 (xPole' 6)) (w := xPole' 10) okS (by decide) kS hx hy
  have i1 : ∀ T : Ex, ∀ x y j, T.val ρ0 x y = J2000Century j → (xRi T).val ρ0 x y = PlanetPhys.Ring.inc j := by
    intro T x y j hT
    simp only [xRi, Ex.val, hT, PlanetPhys.Ring.inc, hornerR, List.foldr_cons, List.foldr_nil]; push_cast; ring
  have n1 : ∀ T : Ex, ∀ x y j, T.val ρ0 x y = J2000Century j → (xRn T).val ρ0 x y + π = PlanetPhys.Ring.node j := by
    intro T x y j hT
    simp only [xRn, Ex.val, hT, PlanetPhys.Ring.node, hornerR, List.foldr_cons, List.foldr_nil]; push_cast; ring
  have w1 := v1.trans (year_century j1)
  have w2 := v2.trans (year_century j2)
  rw [vv_xL (T := xT 2) (t := xt 2) v1 v3 (fun n hn => by interval_cases n <;> rfl), vv_xPole' (i := 6) rfl rfl rfl rfl,
    vv_xPole' (i := 10) rfl rfl rfl rfl, i1 _ _ _ _ w1, n1 _ _ _ _ w1, i1 _ _ _ _ w2, n1 _ _ _ _ w2] at h
  refine h.trans ?_
  have := pi_gt_d6
  norm_num [kSb, TM.S] at *
  linarith

/-- **C181.**  Between dates of 1800–2200, the elevation of a direction above the plane of Saturn's ring does not change when the direction is
precessed from the ecliptic of one date to that of the other: its sine is the same within 0.025″. -/
theorem C181_ring {j1 j2 : ℝ} (h1 : |JDEToJulianYear j1 - 2000| ≤ 200) (h2 : |JDEToJulianYear j2 - 2000| ≤ 200) (l β : ℝ) :
    let w := eclPrecessVal (NewEclipticPrecessor (JDEToJulianYear j1) (JDEToJulianYear j2)) ⟨l, β⟩
    |inner ℝ (dir w.Lon w.Lat) (planePole (PlanetPhys.Ring.inc j2) (PlanetPhys.Ring.node j2)) -
      inner ℝ (dir l β) (planePole (PlanetPhys.Ring.inc j1) (PlanetPhys.Ring.node j1))| ≤ 0.025 * (π / 180 / 3600) := by
  intro w
  have hw : dir w.Lon w.Lat = rotL (JDEToJulianYear j1) (JDEToJulianYear j2) (dir l β) := dir_eclPrecess _ _ _
  have h := ring_axis h1 h2
  rw [← inner_rotL (JDEToJulianYear j1) (JDEToJulianYear j2) (dir l β), ← hw, ← inner_sub_right, ← abs_neg, ← inner_neg_right, neg_sub]
  refine (abs_real_inner_le_norm _ _).trans ?_
  rw [norm_dir, one_mul]; exact h

theorem planePole_eq (i Ω : ℝ) : planePole i Ω = !₂[sin Ω * sin i, -(cos Ω * sin i), cos i] := by
  unfold planePole
  rw [rotX_vec, rotZ_vec]
  apply vec_eq <;> ring

theorem planePole_close (i Ω i' Ω' : ℝ) : ‖planePole i Ω - planePole i' Ω'‖ ^ 2 ≤ (i - i') ^ 2 + (Ω - Ω') ^ 2 := by
  have e : ‖planePole i Ω - planePole i' Ω'‖ ^ 2 = 2 * (1 - cos (i - i')) + 2 * (sin i * sin i') * (1 - cos (Ω - Ω')) := by
    rw [norm_sub_sq_real, ← real_inner_self_eq_norm_sq, ← real_inner_self_eq_norm_sq, planePole_eq, planePole_eq, inner_vec, inner_vec, inner_vec,
      cos_sub, cos_sub]
    have a1 := sin_sq_add_cos_sq i
    have a2 := sin_sq_add_cos_sq i'
    have a3 := sin_sq_add_cos_sq Ω
    have a4 := sin_sq_add_cos_sq Ω'
    linear_combination a1 + a2 + sin i ^ 2 * a3 + sin i' ^ 2 * a4
  rw [e]
  have h1 := one_sub_sq_div_two_le_cos (x := i - i')
  have h2 := one_sub_sq_div_two_le_cos (x := Ω - Ω')
  have h3 := cos_le_one (Ω - Ω')
  have h4 : sin i * sin i' ≤ 1 := by nlinarith [sin_sq_le_one i, sin_sq_le_one i', sq_nonneg (sin i - sin i')]
  nlinarith

/-- **C181.**  The plane of the ring, carried to B1950, is the plane to which package saturnmoons refers the satellites. -/
theorem C181_ring_moons {j : ℝ} (h : |JDEToJulianYear j - 2000| ≤ 200) :
    ‖rotL (JDEToJulianYear j) (JDEToJulianYear 2433282.4235) (planePole (PlanetPhys.Ring.inc j) (PlanetPhys.Ring.node j)) -
      planePole SatMoons.inc0 SatMoons.node0‖ ≤ 0.15 * (π / 180 / 3600) := by
  have h2 : |JDEToJulianYear 2433282.4235 - 2000| ≤ 200 := by unfold JDEToJulianYear; rw [abs_le]; constructor <;> norm_num
  have h3 := ring_axis h h2
  have h4 : ‖planePole (PlanetPhys.Ring.inc 2433282.4235) (PlanetPhys.Ring.node 2433282.4235) - planePole SatMoons.inc0 SatMoons.node0‖ ≤
      0.125 * (π / 180 / 3600) := by
    refine abs_le_of_sq_le_sq' ((planePole_close _ _ _ _).trans ?_) (by positivity) |>.2
    obtain ⟨s, hs⟩ : ∃ s, s = π / 180 / 3600 := ⟨_, rfl⟩
    have e1 : PlanetPhys.Ring.inc 2433282.4235 - SatMoons.inc0 =
        (28.075216 + (-0.012998 + 0.000004 * J2000Century 2433282.4235) * J2000Century 2433282.4235 - 28.0817) * 3600 * s := by
      rw [hs]; unfold PlanetPhys.Ring.inc SatMoons.inc0 Model.deg
      simp only [hornerR, List.foldr_cons, List.foldr_nil]; ring
    have e2 : PlanetPhys.Ring.node 2433282.4235 - SatMoons.node0 =
        (169.50847 + (1.394681 + 0.000412 * J2000Century 2433282.4235) * J2000Century 2433282.4235 - 168.8112) * 3600 * s := by
      rw [hs]; unfold PlanetPhys.Ring.node SatMoons.node0 Model.deg
      simp only [hornerR, List.foldr_cons, List.foldr_nil]; ring
    rw [e1, e2, ← hs, mul_pow _ s, mul_pow _ s, ← add_mul, mul_pow _ s]
    refine mul_le_mul_of_nonneg_right ?_ (sq_nonneg s)
    norm_num [J2000Century]
  have := norm_sub_le_norm_sub_add_norm_sub (rotL (JDEToJulianYear j) (JDEToJulianYear 2433282.4235) (planePole (PlanetPhys.Ring.inc j) (PlanetPhys.Ring.node j)))
    (planePole (PlanetPhys.Ring.inc 2433282.4235) (PlanetPhys.Ring.node 2433282.4235)) (planePole SatMoons.inc0 SatMoons.node0)
  linarith

/-- The axis of Jupiter as the pole of a plane. -/
theorem jupiter_pole (j : ℝ) : dir (PlanetPhys.Jupiter.α0 j) (PlanetPhys.Jupiter.δ0 j) =
    planePole (π / 2 - PlanetPhys.Jupiter.δ0 j) (PlanetPhys.Jupiter.α0 j + π / 2) := by
  rw [planePole_eq, sin_pi_div_two_sub, cos_pi_div_two_sub, sin_add_pi_div_two, cos_add_pi_div_two]
  unfold dir
  apply vec_eq <;> ring

/-- **C181.**  Between dates of 1800–2200, the elevation of a direction above the equator of Jupiter does not change when the direction is precessed from
the equator of one date to that of the other: its sine is the same within 0.025°. -/
theorem C181_jupiter {j1 j2 : ℝ} (h1 : |JDEToJulianYear j1 - 2000| ≤ 200) (h2 : |JDEToJulianYear j2 - 2000| ≤ 200) (α δ : ℝ) :
    let w := precessVal (NewPrecessor (JDEToJulianYear j1) (JDEToJulianYear j2)) ⟨α, δ⟩
    |inner ℝ (dir w.RA w.Dec) (dir (PlanetPhys.Jupiter.α0 j2) (PlanetPhys.Jupiter.δ0 j2)) -
      inner ℝ (dir α δ) (dir (PlanetPhys.Jupiter.α0 j1) (PlanetPhys.Jupiter.δ0 j1))| ≤ 0.025 * (π / 180) := by
  intro w
  have hw : dir w.RA w.Dec = rotE (JDEToJulianYear j1) (JDEToJulianYear j2) (dir α δ) := dir_precess _ _ _
  have hx := epochs (k := 2) (by norm_num) (e := JDEToJulianYear j1) (by norm_num; exact h1)
  have hy := epochs (k := 2) (by norm_num) (e := JDEToJulianYear j2) (by norm_num; exact h2)
  obtain ⟨v1, v2, v3⟩ := xT_val (k := 2) (by norm_num) (JDEToJulianYear j1) (JDEToJulianYear j2)
  have h := norm_units (holdsL _ _ rfl caJ) (v := xE 0 (xPole 6)) (w := xPole 10) okJ (by decide) kJ hx hy
  have i1 : ∀ T : Ex, ∀ x y j, T.val ρ0 x y = J2000Century j → (xJc T).val ρ0 x y = π / 2 - PlanetPhys.Jupiter.δ0 j := by
    intro T x y j hT
    simp only [xJc, Ex.val, hT, PlanetPhys.Jupiter.δ0, Model.deg, J2000Century]; push_cast; ring
  have n1 : ∀ T : Ex, ∀ x y j, T.val ρ0 x y = J2000Century j → planePole (π / 2 - PlanetPhys.Jupiter.δ0 j) ((xJa T).val ρ0 x y) =
      dir (PlanetPhys.Jupiter.α0 j) (PlanetPhys.Jupiter.δ0 j) := by
    intro T x y j hT
    have : PlanetPhys.Jupiter.α0 j + π / 2 = (xJa T).val ρ0 x y + 2 * π := by
      simp only [xJa, Ex.val, hT, PlanetPhys.Jupiter.α0, Model.deg, J2000Century]; push_cast; ring
    rw [jupiter_pole, this, planePole_eq, planePole_eq, sin_add_two_pi, cos_add_two_pi]
  have w1 := v1.trans (year_century j1)
  have w2 := v2.trans (year_century j2)
  rw [vv_xE (T := xT 2) (t := xt 2) v1 v3 (fun n hn => by interval_cases n <;> rfl), vv_xPole (i := 6) rfl rfl rfl rfl,
    vv_xPole (i := 10) rfl rfl rfl rfl, i1 _ _ _ _ w1, i1 _ _ _ _ w2, n1 _ _ _ _ w1, n1 _ _ _ _ w2] at h
  rw [← inner_rotE (JDEToJulianYear j1) (JDEToJulianYear j2) (dir α δ), ← hw, ← inner_sub_right, ← abs_neg, ← inner_neg_right, neg_sub]
  refine (abs_real_inner_le_norm _ _).trans ?_
  rw [norm_dir, one_mul]
  refine h.trans ?_
  have := pi_gt_d6
  norm_num [kJb, TM.S] at *
  linarith

/-- **C181.**  Between dates of 1800–2200, the heliographic latitude B0 of the Earth is the same, within 0.0000105 in the sine, for a longitude of
the Sun at one date and that longitude precessed along the ecliptic at the other. -/
theorem C181_sun {j1 j2 : ℝ} (h1 : |JDEToJulianYear j1 - 2000| ≤ 200) (h2 : |JDEToJulianYear j2 - 2000| ≤ 200) (l lp ε lp' ε' : ℝ) :
    let p := (eclAngles (JDEToJulianYear j1) (JDEToJulianYear j2)).2.2
    |sin (Solardisk.orient j2 (l + p) lp' ε').2.1 - sin (Solardisk.orient j1 l lp ε).2.1| ≤ 0.0000105 := by
  intro p
  have hI : sin solarI ≤ 0.12655 ∧ 0 ≤ sin solarI := by
    have h0 : 0 ≤ solarI := by unfold solarI Model.deg; positivity
    have h1 : solarI ≤ 0.12655 := by
      unfold solarI Model.deg
      have := pi_lt_d6; norm_num at *; linarith
    exact ⟨(sin_le h0).trans h1, sin_nonneg_of_nonneg_of_le_pi h0 (by linarith [pi_gt_three])⟩
  have hb : ∀ j l lp ε, sin (Solardisk.orient j l lp ε).2.1 = sin (l - solarK j) * sin solarI := by
    intro j l lp ε
    show sin (arcsin (sin (l - solarK j) * sin solarI)) = _
    have h := abs_le.1 (abs_sin_le_one (l - solarK j))
    have hm : |sin (l - solarK j) * sin solarI| ≤ 1 := by
      rw [abs_mul, abs_of_nonneg hI.2]
      have := abs_sin_le_one (l - solarK j)
      nlinarith [hI.1, hI.2, abs_nonneg (sin (l - solarK j))]
    rw [sin_arcsin (abs_le.1 hm).1 (abs_le.1 hm).2]
  rw [hb, hb, ← sub_mul, abs_mul, abs_of_nonneg hI.2]
  have hs : |sin (l + p - solarK j2) - sin (l - solarK j1)| ≤ |p - (solarK j2 - solarK j1)| := by
    have : |sin (l + p - solarK j2) - sin (l - solarK j1)| ≤ |(l + p - solarK j2) - (l - solarK j1)| := abs_sin_sub_sin_le _ _
    rwa [show (l + p - solarK j2) - (l - solarK j1) = p - (solarK j2 - solarK j1) by ring] at this
  have hp : |p - (solarK j2 - solarK j1)| ≤ 16.5 * (π / 180 / 3600) := by
    obtain ⟨s, hs⟩ : ∃ s, s = π / 180 / 3600 := ⟨_, rfl⟩
    obtain ⟨T, hT⟩ : ∃ T, T = (JDEToJulianYear j1 - 2000) / 100 := ⟨_, rfl⟩
    obtain ⟨U, hU⟩ : ∃ U, U = (JDEToJulianYear j2 - 2000) / 100 := ⟨_, rfl⟩
    have e : p - (solarK j2 - solarK j1) = ((5029.0966 + 2.22226 * T - 0.000042 * T ^ 2) * (U - T) + (1.11113 - 0.000042 * T) * (U - T) ^ 2 -
        0.000006 * (U - T) ^ 3 - 1.3958333 * 3600 * (U - T)) * s := by
      have e0 : (JDEToJulianYear j2 - JDEToJulianYear j1) / 100 = U - T := by rw [hU, hT]; ring
      simp only [p]
      rw [C83_angles]
      dsimp only
      rw [e0, ← hT, ← hs]
      have : solarK j2 - solarK j1 = 1.3958333 * 3600 * (U - T) * s := by
        rw [hU, hT, hs]; unfold solarK JDEToJulianYear Model.deg; ring
      rw [this]; ring
    have t1 : |T| ≤ 2 := by rw [hT, abs_div, abs_of_pos (by norm_num : (0 : ℝ) < 100)]; linarith
    have t2 : |U| ≤ 2 := by rw [hU, abs_div, abs_of_pos (by norm_num : (0 : ℝ) < 100)]; linarith
    rw [e, ← hs, abs_mul, abs_of_nonneg (show 0 ≤ s by rw [hs]; positivity)]
    refine mul_le_mul_of_nonneg_right ?_ (by rw [hs]; positivity)
    clear * - t1 t2
    have e : (5029.0966 + 2.22226 * T - 0.000042 * T ^ 2) * (U - T) + (1.11113 - 0.000042 * T) * (U - T) ^ 2 -
        0.000006 * (U - T) ^ 3 - 1.3958333 * 3600 * (U - T) = 4.09672 * (U - T) + 1.11113 * (U ^ 2 - T ^ 2) +
        (-0.000042 * T ^ 2 * (U - T) - 0.000042 * T * (U - T) ^ 2 - 0.000006 * (U - T) ^ 3) := by ring
    rw [e]
    rw [abs_le] at t1 t2
    have a1 : T ^ 2 ≤ 4 := by nlinarith
    have a2 : U ^ 2 ≤ 4 := by nlinarith
    have q1 : |T ^ 2 * (U - T)| ≤ 16 := by
      rw [abs_mul, abs_of_nonneg (sq_nonneg T)]
      have : |U - T| ≤ 4 := by rw [abs_le]; constructor <;> linarith
      nlinarith [abs_nonneg (U - T), sq_nonneg T]
    have q2 : |T * (U - T) ^ 2| ≤ 32 := by
      rw [abs_mul, abs_of_nonneg (sq_nonneg (U - T))]
      have : (U - T) ^ 2 ≤ 16 := by nlinarith
      have : |T| ≤ 2 := by rw [abs_le]; exact t1
      nlinarith [abs_nonneg T, sq_nonneg (U - T)]
    have q3 : |(U - T) ^ 3| ≤ 64 := by
      have : |U - T| ≤ 4 := by rw [abs_le]; constructor <;> linarith
      rw [abs_pow]
      calc |U - T| ^ 3 ≤ 4 ^ 3 := pow_le_pow_left₀ (abs_nonneg _) this 3
        _ = 64 := by norm_num
    rw [abs_le] at q1 q2 q3
    have f1 : ∀ V : ℝ, -2 ≤ V → V ≤ 2 → -3.777 ≤ 4.09672 * V + 1.11113 * V ^ 2 ∧ 4.09672 * V + 1.11113 * V ^ 2 ≤ 12.639 := by
      intro V v1 v2
      constructor
      · nlinarith [sq_nonneg (V + 1.8435)]
      · nlinarith
    obtain ⟨g1, g2⟩ := f1 T t1.1 t1.2
    obtain ⟨g3, g4⟩ := f1 U t2.1 t2.2
    rw [show 4.09672 * (U - T) + 1.11113 * (U ^ 2 - T ^ 2) + (-0.000042 * T ^ 2 * (U - T) - 0.000042 * T * (U - T) ^ 2 - 0.000006 * (U - T) ^ 3) =
      (4.09672 * U + 1.11113 * U ^ 2) - (4.09672 * T + 1.11113 * T ^ 2) + (-0.000042 * (T ^ 2 * (U - T)) - 0.000042 * (T * (U - T) ^ 2) -
        0.000006 * (U - T) ^ 3) by ring]
    generalize 4.09672 * U + 1.11113 * U ^ 2 = z1 at *
    generalize 4.09672 * T + 1.11113 * T ^ 2 = z2 at *
    generalize T ^ 2 * (U - T) = z3 at *
    generalize T * (U - T) ^ 2 = z4 at *
    generalize (U - T) ^ 3 = z5 at *
    clear e f1
    rw [abs_le]
    norm_num at *
    constructor <;> linarith
  have hpi : 16.5 * (π / 180 / 3600) ≤ 0.00008 := by
    have := pi_lt_d6; norm_num at *; linarith
  have hf : |sin (l + p - solarK j2) - sin (l - solarK j1)| ≤ 0.00008 := hs.trans (hp.trans hpi)
  have := mul_le_mul hf hI.1 hI.2 (by norm_num : (0 : ℝ) ≤ 0.00008)
  refine this.trans (by norm_num)

/-- From 1900 to 2100. -/
example : |JDEToJulianYear 2415020 - 2000| ≤ 200 ∧ |JDEToJulianYear 2488070 - 2000| ≤ 200 := by
  unfold JDEToJulianYear; constructor <;> (rw [abs_le]; constructor <;> norm_num)

end Verif.Props
