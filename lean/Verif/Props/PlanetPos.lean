import Verif.Model.PlanetPos
import Verif.Props.Vsop
import Verif.Props.Precess
import Verif.Lemmas.Tangent
import Mathlib.Analysis.SpecialFunctions.Trigonometric.Bounds
import Mathlib.Analysis.Real.Pi.Bounds
/-
C133, C134: heliocentric positions from a VSOP87 file, their precession, and the reduction to the FK5 frame.
-/
namespace Verif.Props

open Real Verif.Go Verif.Model Verif.Model.Vsop Verif.Spec Verif.Spec.Vsop Verif.Lemmas Verif.Model.PlanetPos

/-- The value of a VSOP87 coordinate, written from the blocks of the file: the sum over the blocks of τ^power times the sum of
a cos (b + c τ) over the terms of the block. -/
noncomputable def vsopValue (bs : List (Block ℝ)) (τ : ℝ) : ℝ :=
  (bs.map fun b => τ ^ b.power * (b.terms.map fun t => t.a * cos (t.b + t.c * τ)).sum).sum

theorem sumTerms_eq (l : List (Term ℝ)) (τ : ℝ) : sumTerms l τ = (l.map fun t => t.a * cos (t.b + t.c * τ)).sum := by
  unfold sumTerms
  rw [List.foldl_reverse]
  induction l with
  | nil => rfl
  | cons t l ih => rw [List.foldr_cons, ih, List.map_cons, List.sum_cons]; ring

theorem sum_blocks {c : Coeff ℝ} {bs : List (Block ℝ)} (h : Holds c bs) (hn : (bs.map Block.power).Nodup) (hp : ∀ b ∈ bs, b.power ≤ 5)
    (τ : ℝ) : PlanetPos.sum c τ = vsopValue bs τ := by
  obtain ⟨g, hg⟩ : ∃ g : ℕ → ℝ, g = fun k => τ ^ k * sumTerms (c k) τ := ⟨_, rfl⟩
  have h1 : PlanetPos.sum c τ = ∑ k ∈ Finset.range 6, g k := by
    unfold PlanetPos.sum
    simp only [List.range_succ, List.range_zero, List.nil_append, List.map_append, List.map_cons, List.map_nil, hornerR, List.cons_append,
      List.foldr_cons, List.foldr_nil, Finset.sum_range_succ, Finset.sum_range_zero, hg]
    ring
  have h2 : vsopValue bs τ = ((bs.map Block.power).map g).sum := by
    unfold vsopValue
    rw [List.map_map]
    congr 1
    apply List.map_congr_left
    intro b hb
    rw [Function.comp, hg]
    dsimp only
    rw [h.1 b hb, sumTerms_eq]
  rw [h1, h2, ← List.sum_toFinset g hn]
  symm
  apply Finset.sum_subset
  · intro k hk
    rw [List.mem_toFinset, List.mem_map] at hk
    obtain ⟨b, hb, rfl⟩ := hk
    rw [Finset.mem_range]
    have := hp b hb
    omega
  · intro k _ hk
    rw [List.mem_toFinset, List.mem_map] at hk
    push Not at hk
    rw [hg]
    dsimp only
    rw [h.2 k (fun b hb => hk b hb)]
    simp [sumTerms]

theorem section_powers {lib : Lib ℝ} {ic : UInt8} {ibody : ℕ} {bs : List (Block ℝ)} {ls : List Line} (h : IsSection lib ic ibody bs ls) :
    ∀ b ∈ bs, b.power ≤ 5 := by
  induction h with
  | nil => simp
  | cons _ h5 _ _ _ _ ih =>
    intro b hb
    rcases List.mem_cons.1 hb with rfl | hb
    · exact h5
    · exact ih b hb

/-- C133.  From the bytes of a file to the position: for every well formed file the planet loaded from it has, at every date, the heliocentric
latitude and radius given by the terms of the file, and the longitude so given reduced to [0, 2π); τ is in Julian millennia from J2000. -/
theorem C133_position2000 (lib : Lib ℝ) (ibody : ℕ) (hb : ibody < 8) {bl bb br : List (Block ℝ)} {ll lb lr tail : List Line}
    (hl : IsSection lib 49 ibody bl ll) (hbb : IsSection lib 50 ibody bb lb) (hr : IsSection lib 51 ibody br lr)
    (nl : (bl.map Block.power).Nodup) (nb : (bb.map Block.power).Nodup) (nr : (br.map Block.power).Nodup)
    (ht : ∀ l, tail.head? = some l → l.length < 132)
    (hne : ll ++ (lb ++ (lr ++ tail)) ≠ []) (hnl : ∀ l ∈ ll ++ (lb ++ (lr ++ tail)), (10 : UInt8) ∉ l) :
    ∀ fuel, bl.length + bb.length + br.length < fuel →
    ∃ v : V87Planet ℝ, LoadPlanetPath lib fuel ibody (some (joinLines (ll ++ (lb ++ (lr ++ tail))))) = .ok v ∧
      ∀ jde, ∃ L, Position2000 v jde = (L, vsopValue bb ((jde - 2451545) / 365250), vsopValue br ((jde - 2451545) / 365250)) ∧
        0 ≤ L ∧ L < 2 * π ∧ ∃ k : ℤ, vsopValue bl ((jde - 2451545) / 365250) = L + k * (2 * π) := by
  intro fuel hf
  obtain ⟨v, hv, h1, h2, h3⟩ := C55_loads_exactly lib ibody hb hl hbb hr nl nb nr ht hne hnl fuel hf
  refine ⟨v, hv, fun jde => ?_⟩
  have hτ : J2000Century jde * 0.1 = (jde - 2451545) / 365250 := by unfold J2000Century; ring
  obtain ⟨p1, p2, p3⟩ := pmod_eq (vsopValue bl ((jde - 2451545) / 365250)) (show 0 < 2 * π by positivity)
  refine ⟨pmod (vsopValue bl ((jde - 2451545) / 365250)) (2 * π), ?_, p1, p2, p3⟩
  unfold Position2000
  dsimp only
  rw [hτ, sum_blocks h1 nl (section_powers hl), sum_blocks h2 nb (section_powers hbb), sum_blocks h3 nr (section_powers hr)]

/-- C133.  A position of date has the radius of the J2000 position, and its direction is the J2000 direction turned from the ecliptic of
J2000.0 to that of date: about the node Π by −η, then along the ecliptic of date by p, with Meeus's angles (21.6). -/
theorem C133_position_of_date (v : V87Planet ℝ) (jde : ℝ) :
    let q := Position2000 v jde
    let q' := PlanetPos.Position v jde
    let t := (jde - 2451545) / 36525
    let s := π / 180 / 3600
    let η := (47.0029 * t - 0.03302 * t ^ 2 + 0.000060 * t ^ 3) * s
    let ϖ := 174.876384 * (π / 180) + (-869.8089 * t + 0.03536 * t ^ 2) * s
    let p := (5029.0966 * t + 1.11113 * t ^ 2 - 0.000006 * t ^ 3) * s
    q'.2.2 = q.2.2 ∧ dir q'.1 q'.2.1 = rotZ (ϖ + p) (rotX (-η) (rotZ (-ϖ) (dir q.1 q.2.1))) := by
  intro q q' t s η ϖ p
  have hq : q' = ((Precess.eclPrecessVal (Precess.NewEclipticPrecessor 2000 (JDEToJulianYear jde)) ⟨q.1, q.2.1⟩).Lon,
      (Precess.eclPrecessVal (Precess.NewEclipticPrecessor 2000 (JDEToJulianYear jde)) ⟨q.1, q.2.1⟩).Lat, q.2.2) := by
    simp only [q', PlanetPos.Position, Precess.eclipticPositionVal, eq_real, lit_real, Rat.cast_zero, not_true_eq_false, or_self, if_false]
    rfl
  refine ⟨by rw [hq], ?_⟩
  rw [hq]
  dsimp only
  have h := C83_ecliptic_rotation 2000 (JDEToJulianYear jde) q.1 q.2.1
  dsimp only at h
  rw [h, C83_angles]
  dsimp only
  have e1 : ((47.0029 - 0.06603 * ((2000 - 2000) / 100) + 0.000598 * ((2000 - 2000) / 100) ^ 2) * ((JDEToJulianYear jde - 2000) / 100) +
      (-0.03302 + 0.000598 * ((2000 - 2000) / 100)) * ((JDEToJulianYear jde - 2000) / 100) ^ 2 +
      0.000060 * ((JDEToJulianYear jde - 2000) / 100) ^ 3) * (π / 180 / 3600) = η := by
    simp only [η, t, s, JDEToJulianYear]; ring
  have e2 : 174.876384 * (π / 180) + (3289.4789 * ((2000 - 2000) / 100) + 0.60622 * ((2000 - 2000) / 100) ^ 2 -
      (869.8089 + 0.50491 * ((2000 - 2000) / 100)) * ((JDEToJulianYear jde - 2000) / 100) +
      0.03536 * ((JDEToJulianYear jde - 2000) / 100) ^ 2) * (π / 180 / 3600) = ϖ := by
    simp only [ϖ, t, s, JDEToJulianYear]; ring
  have e3 : ((5029.0966 + 2.22226 * ((2000 - 2000) / 100) - 0.000042 * ((2000 - 2000) / 100) ^ 2) * ((JDEToJulianYear jde - 2000) / 100) +
      (1.11113 - 0.000042 * ((2000 - 2000) / 100)) * ((JDEToJulianYear jde - 2000) / 100) ^ 2 -
      0.000006 * ((JDEToJulianYear jde - 2000) / 100) ^ 3) * (π / 180 / 3600) = p := by
    simp only [p, t, s, JDEToJulianYear]; ring
  rw [e1, e2, e3]

/-- C133.  At the epoch J2000.0 the two positions have the same direction and distance. -/
theorem C133_epoch (v : V87Planet ℝ) :
    dir (PlanetPos.Position v 2451545).1 (PlanetPos.Position v 2451545).2.1 = dir (Position2000 v 2451545).1 (Position2000 v 2451545).2.1 ∧
    (PlanetPos.Position v 2451545).2.2 = (Position2000 v 2451545).2.2 := by
  obtain ⟨h1, h2⟩ := C133_position_of_date v 2451545
  refine ⟨?_, h1⟩
  rw [h2]
  norm_num
  have e0 : ∀ w : V3, rotX 0 w = w := fun w => by
    conv_rhs => rw [vec_self w]
    unfold rotX; simp
  rw [e0, rotZ_dir, rotZ_dir]
  congr 1; ring

/-- A concrete planet: one term of longitude, one of radius; at J2000.0 the longitude 7 is reduced to 7 − 2π. -/
example : Position2000 ⟨fun k => if k = 0 then [⟨7, 0, 0⟩] else [], noTerms, fun k => if k = 1 then [] else [⟨2, 0, 0⟩]⟩ 2451545 =
    (7 - 2 * π, 0, 2) := by
  have h3 := pi_gt_three
  have h4 := pi_lt_d2
  have hp : pmod 7 (2 * π) = 7 - 2 * π := pmod_unique (by positivity) (by linarith) (by linarith) 1 (by push_cast; ring)
  simp [Position2000, J2000Century, PlanetPos.sum, sumTerms, hornerR, List.range_succ, noTerms, hp]

/-! ### FK5 -/

/-- The rotation vector of the reduction to FK5: −0.03916″, −0.03916″, −0.09033″ about the axes of the ecliptic of J2000 (in longitude turned
by θ, the general precession since). -/
noncomputable def fk5Axis (θ : ℝ) : V3 := rotZ θ !₂[-(0.03916 * Nutation.sec), -(0.03916 * Nutation.sec), -(0.09033 * Nutation.sec)]

theorem fk5_parts (L B jde : ℝ) (hB : cos B ≠ 0) :
    let Lp := L - (1.397 * J2000Century jde + 0.00031 * J2000Century jde * J2000Century jde) * π / 180
    cos B * ((ToFK5 L B jde).1 - L) = (-0.09033 * cos B + 0.03916 * (cos Lp + sin Lp) * sin B) * Nutation.sec ∧
    (ToFK5 L B jde).2 - B = 0.03916 * (cos Lp - sin Lp) * Nutation.sec := by
  intro Lp
  constructor
  · show cos B * (L + (-0.09033 + 0.03916 * (cos Lp + sin Lp) * tan B) * Nutation.sec - L) = _
    rw [tan_eq_sin_div_cos]
    field_simp
    ring
  · show B + 0.03916 * (cos Lp - sin Lp) * Nutation.sec - B = _
    ring

/-- C134.  The reduction to FK5 displaces every direction off the poles as one fixed small rotation does: the displacement is the vector product
of the rotation vector, the same for all directions, with the direction. -/
theorem C134_rotation (L B jde : ℝ) (hB : cos B ≠ 0) :
    let T := J2000Century jde
    shift L B ((ToFK5 L B jde).1 - L) ((ToFK5 L B jde).2 - B) =
      cross (fk5Axis ((1.397 * T + 0.00031 * T * T) * π / 180)) (dir L B) := by
  intro T
  obtain ⟨h1, h2⟩ := fk5_parts L B jde hB
  rw [shift_vec, h1, h2]
  unfold fk5Axis dir
  rw [rotZ_vec, cross_vec, cos_sub, sin_sub]
  have e := sin_sq_add_cos_sq L
  apply vec_eq <;> grind

theorem sec_val : 0.00000484 < Nutation.sec ∧ Nutation.sec < 0.00000485 := by
  unfold Nutation.sec
  constructor
  · rw [div_div, lt_div_iff₀ (by norm_num)]; linarith [pi_gt_d4]
  · rw [div_div, div_lt_iff₀ (by norm_num)]; linarith [pi_lt_d4]

/-- A bound of the chord bounds the angle. -/
theorem angle_of_chord {r d r' d' q s : ℝ} (h : ‖dir r d - dir r' d'‖ ≤ q) (hs0 : 0 < s) (hs1 : s ≤ 1) (hq : q ≤ s - s ^ 3 / 24) :
    sep r d r' d' ≤ s := by
  have hc : ‖dir r d - dir r' d'‖ ^ 2 = 2 - 2 * inner ℝ (dir r d) (dir r' d') := by
    rw [norm_sub_sq_real, norm_dir, norm_dir]; ring
  have hi : inner ℝ (dir r d) (dir r' d') = cos (sep r d r' d') := by
    unfold sep; rw [InnerProductGeometry.cos_angle, norm_dir, norm_dir]; simp
  by_contra hlt
  push Not at hlt
  have hle : sep r d r' d' ≤ π := InnerProductGeometry.angle_le_pi _ _
  have hcos := cos_lt_cos_of_nonneg_of_le_pi hs0.le hle hlt
  have hsin := sin_gt_sub_cube (show 0 < s / 2 by linarith)
  have hh : cos s = 1 - 2 * sin (s / 2) ^ 2 := by
    have := cos_sq' (s / 2)
    have h2 := cos_two_mul (s / 2)
    rw [show 2 * (s / 2) = s by ring] at h2
    rw [h2, this]; ring
  have hn := norm_nonneg (dir r d - dir r' d')
  have h0 : 0 < s / 2 - (s / 2) ^ 3 / 6 := by nlinarith [pow_pos hs0 3, pow_pos hs0 2]
  have hq2 : ‖dir r d - dir r' d'‖ ≤ 2 * (s / 2 - (s / 2) ^ 3 / 6) := by nlinarith
  have : ‖dir r d - dir r' d'‖ ^ 2 ≤ (2 * sin (s / 2)) ^ 2 := pow_le_pow_left₀ hn (by linarith) 2
  nlinarith

/-- Moving along a parallel and then along a meridian. -/
theorem chord_le (r d r' d' : ℝ) : ‖dir r d - dir r' d'‖ ≤ |cos d * (r' - r)| + |d' - d| := by
  have split : dir r d - dir r' d' = (dir r d - dir r' d) + (dir r' d - dir r' d') := by abel
  have n : ∀ a b c e : ℝ, ‖dir a b - dir c e‖ ^ 2 = 2 - 2 * (sin b * sin e + cos b * cos e * cos (a - c)) := by
    intro a b c e
    rw [norm_sub_sq_real, norm_dir, norm_dir, inner_dir]; ring
  have half : ∀ x : ℝ, 1 - cos x ≤ x ^ 2 / 2 := fun x => by linarith [one_sub_sq_div_two_le_cos (x := x)]
  have p1 : ‖dir r d - dir r' d‖ ≤ |cos d * (r' - r)| := by
    apply abs_le_of_sq_le_sq' _ (abs_nonneg _) |>.2
    rw [n, sq_abs]
    have e := sin_sq_add_cos_sq d
    have h := half (r - r')
    nlinarith [mul_le_mul_of_nonneg_left h (sq_nonneg (cos d))]
  have p2 : ‖dir r' d - dir r' d'‖ ≤ |d' - d| := by
    apply abs_le_of_sq_le_sq' _ (abs_nonneg _) |>.2
    rw [n, sq_abs, sub_self, cos_zero]
    have h := half (d - d')
    rw [cos_sub] at h
    nlinarith
  rw [split]
  exact (norm_add_le _ _).trans (add_le_add p1 p2)

/-- C134.  The reduction to FK5 moves no direction off the poles by more than 0.17″. -/
theorem C134_small (L B jde : ℝ) (hB : cos B ≠ 0) :
    sep L B (ToFK5 L B jde).1 (ToFK5 L B jde).2 ≤ 0.17 * Nutation.sec := by
  obtain ⟨s0, s1⟩ := sec_val
  obtain ⟨h1, h2⟩ := fk5_parts L B jde hB
  have hc := chord_le L B (ToFK5 L B jde).1 (ToFK5 L B jde).2
  rw [h1, h2, abs_mul, abs_mul, abs_of_pos (show 0 < Nutation.sec by linarith)] at hc
  set Lp := L - (1.397 * J2000Century jde + 0.00031 * J2000Century jde * J2000Century jde) * π / 180
  have e1 := sin_sq_add_cos_sq Lp
  have e2 := sin_sq_add_cos_sq B
  have b1 : |0.03916 * (cos Lp - sin Lp)| ≤ 0.0554 := by
    apply abs_le_of_sq_le_sq _ (by norm_num)
    nlinarith [sq_nonneg (cos Lp + sin Lp)]
  have b2 : |-0.09033 * cos B + 0.03916 * (cos Lp + sin Lp) * sin B| ≤ 0.106 := by
    apply abs_le_of_sq_le_sq _ (by norm_num)
    have k : (0.03916 * (cos Lp + sin Lp)) ^ 2 ≤ 2 * 0.03916 ^ 2 := by nlinarith [sq_nonneg (cos Lp - sin Lp)]
    generalize 0.03916 * (cos Lp + sin Lp) = w at k ⊢
    have id : (-0.09033 * cos B + w * sin B) ^ 2 = (0.09033 ^ 2 + w ^ 2) * (sin B ^ 2 + cos B ^ 2) - (0.09033 * sin B + w * cos B) ^ 2 := by ring
    rw [id, e2]
    nlinarith [sq_nonneg (0.09033 * sin B + w * cos B)]
  refine angle_of_chord hc (by nlinarith) (by nlinarith) ?_
  have : 0.17 * Nutation.sec ≤ 0.001 := by nlinarith
  have h3 : (0.17 * Nutation.sec) ^ 3 ≤ 0.17 * Nutation.sec * 0.001 ^ 2 := by
    have : (0.17 * Nutation.sec) ^ 2 ≤ 0.001 ^ 2 := pow_le_pow_left₀ (by nlinarith) this 2
    nlinarith
  nlinarith

/-- The example of Meeus, Venus 1992 December 20: off the poles. -/
example : cos (-0.5 * (π / 180)) ≠ 0 := (cos_pos_of_mem_Ioo ⟨by linarith [pi_pos], by linarith [pi_pos]⟩).ne'

end Verif.Props
