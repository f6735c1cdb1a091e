import Verif.Lemmas.TaylorModel
import Verif.Model.Coord64
import Verif.Props.Sep64
import Verif.Props.Times64
/-
C191: latitude, declination and altitude from the conversions of coordinates in double precision.
-/
namespace Verif.Props

open Real Verif.Spec Verif.Model Verif.Go Verif.Go.F64 Verif.Go.F64.Ex

namespace Coord64v

open Coord64

theorem env_vars {a : List ℝ} (h : ∀ x ∈ a, |x| ≤ 8) :
    ∀ i p, (List.replicate a.length (8 * 2 ^ 64, 0))[i]? = some p → Fits (vars a i) (vars a i) p := by
  intro i p hp
  rw [List.getElem?_replicate] at hp
  split_ifs at hp with hi
  · obtain rfl : (8 * 2 ^ 64, 0) = p := by simpa using hp
    have e : vars a i = a[i] := by simp [vars, hi]
    rw [e]
    refine ⟨?_, by simp⟩
    norm_num
    exact h _ (List.getElem_mem hi)

/-- Two arc cosines differ by at most π times the root of half the difference of their arguments. -/
theorem arccos_holder {a b δ : ℝ} (a0 : -1 ≤ a) (a1 : a ≤ 1) (b0 : -1 ≤ b) (b1 : b ≤ 1) (h : |a - b| ≤ 2 * δ ^ 2) (hδ : 0 ≤ δ) :
    |arccos a - arccos b| ≤ π * δ := by
  have key : ∀ x y : ℝ, 0 ≤ x → x ≤ y → y ≤ π → Real.cos x - Real.cos y ≤ 2 * δ ^ 2 → y - x ≤ π * δ := by
    intro x y x0 xy yπ hd
    have hπ := pi_pos
    rw [Real.cos_sub_cos, show (x - y) / 2 = -((y - x) / 2) by ring, Real.sin_neg] at hd
    have m1 : Real.sin ((y - x) / 2) ≤ Real.sin ((x + y) / 2) := Sep64v.sin_between (by linarith) (by linarith) (by linarith)
    have m2 := Real.mul_le_sin (x := (y - x) / 2) (by linarith) (by linarith)
    have m3 : 0 ≤ 2 / π * ((y - x) / 2) := mul_nonneg (by positivity) (by linarith)
    have m4 : (2 / π * ((y - x) / 2)) ^ 2 ≤ δ ^ 2 := by nlinarith
    have m5 := abs_le_of_sq_le_sq' m4 hδ
    have m6 : 2 / π * ((y - x) / 2) = (y - x) / π := by field_simp
    rw [m6, div_le_iff₀ hπ] at m5
    linarith [m5.2]
  have ca := cos_arccos a0 a1
  have cb := cos_arccos b0 b1
  obtain ⟨h1, h2⟩ := abs_le.mp h
  rcases le_total (arccos a) (arccos b) with g | g
  · have := key _ _ (arccos_nonneg a) g (arccos_le_pi b) (by rw [ca, cb]; linarith)
    rw [abs_le]; constructor <;> linarith [mul_nonneg pi_pos.le hδ]
  · have := key _ _ (arccos_nonneg b) g (arccos_le_pi a) (by rw [ca, cb]; linarith)
    rw [abs_le]; constructor <;> linarith [mul_nonneg pi_pos.le hδ]

/-- The arc sine of a number near the sine of the true latitude. -/
theorem lat_close {f : Sep64.Inv} (hf : f.Ok) {x r1 d1 r2 d2 : ℝ} (h : |x - Real.cos (sep r1 d1 r2 d2)| ≤ 16 / 1000000000000000) :
    (π / 1080 ≤ sep r1 d1 r2 d2 → sep r1 d1 r2 d2 ≤ π - π / 1080 → ∃ r, asin f x = some r ∧ |r - (π / 2 - sep r1 d1 r2 d2)| ≤ 2e-11) ∧
    (∀ r, asin f x = some r → |r - (π / 2 - sep r1 d1 r2 d2)| ≤ 3e-7) := by
  obtain ⟨s0, s1⟩ := Sep64v.sep_range r1 d1 r2 d2
  generalize sep r1 d1 r2 d2 = σ at *
  have hπ := pi_pos
  have hπ4 := pi_lt_d2
  obtain ⟨h1, h2⟩ := abs_le.mp h
  constructor
  · intro g1 g2
    obtain ⟨k1, -, -⟩ := Sep64v.cos_ten
    have g3 : Real.cos σ ≤ Real.cos (π / 1080) := Real.cos_le_cos_of_nonneg_of_le_pi (by positivity) s1 g1
    have g4 : Real.cos (π - π / 1080) ≤ Real.cos σ := Real.cos_le_cos_of_nonneg_of_le_pi s0 (by linarith) g2
    rw [Real.cos_pi_sub] at g4
    norm_num at k1
    have x0 : -1 ≤ x := by linarith
    have x1 : x ≤ 1 := by linarith
    have hx : |x| ≤ 1 := abs_le.mpr ⟨x0, x1⟩
    refine ⟨f.asin x, by simp [asin, hx], ?_⟩
    have e1 := hf.asin x hx
    have e2 := Sep64v.arccos_close x0 x1 g1 g2 h
    rw [arccos_eq_pi_div_two_sub_arcsin] at e2
    have e3 : arcsin x - (π / 2 - σ) = -(π / 2 - arcsin x - σ) := by ring
    have e4 : |arcsin x - (π / 2 - σ)| ≤ 1100 * (16 / 1000000000000000) := by rw [e3, abs_neg]; exact e2
    refine (abs_sub_le _ (arcsin x) _).trans ((add_le_add e1 e4).trans ?_)
    norm_num
  · intro r hr
    have hx : |x| ≤ 1 := by
      by_contra c
      simp [asin, c] at hr
    have er : r = f.asin x := by simp [asin, hx] at hr; exact hr.symm
    obtain ⟨x0, x1⟩ := abs_le.mp hx
    have e1 := hf.asin x hx
    have e2 := arccos_holder (δ := 9 / 100000000) x0 x1 (neg_one_le_cos σ) (cos_le_one σ) (h.trans (by norm_num)) (by norm_num)
    rw [arccos_cos s0 s1, arccos_eq_pi_div_two_sub_arcsin] at e2
    have e3 : arcsin x - (π / 2 - σ) = -(π / 2 - arcsin x - σ) := by ring
    have e4 : |arcsin x - (π / 2 - σ)| ≤ 2835 / 10000000000 := by
      rw [e3, abs_neg]; norm_num at hπ4; linarith
    rw [er]
    refine (abs_sub_le _ (arcsin x) _).trans ((add_le_add e1 e4).trans ?_)
    norm_num

theorem lat_run {l : Trig} (hl : l.Ok) {f : Sep64.Inv} (hf : f.Ok) {e : Ex} {a : List ℝ} (ha : ∀ x ∈ a, |x| ≤ 8) {r1 d1 r2 d2 : ℝ} {out : Option ℝ}
    (hv : e.val (vars a) = Real.cos (sep r1 d1 r2 d2)) (hw : within (List.replicate a.length (8 * 2 ^ 64, 0)) e (2 ^ 66) 5444517870735015415413993 = true)
    (h : Lat l f e a out) :
    (π / 1080 ≤ sep r1 d1 r2 d2 → sep r1 d1 r2 d2 ≤ π - π / 1080 → ∃ r, out = some r ∧ |r - (π / 2 - sep r1 d1 r2 d2)| ≤ 2e-11) ∧
    (∀ r, out = some r → |r - (π / 2 - sep r1 d1 r2 d2)| ≤ 3e-7) := by
  obtain ⟨x, hx, rfl⟩ := h
  have b := (within_bound hl (env_vars ha) hx hw).2
  rw [hv] at b
  exact lat_close hf (b.trans (by norm_num))

theorem sep_dot (r1 d1 r2 d2 : ℝ) : Real.cos (sep r1 d1 r2 d2) = Real.sin d1 * Real.sin d2 + Real.cos d1 * Real.cos d2 * Real.cos (r1 - r2) := by
  obtain ⟨b1, b2⟩ := dot_bounds r1 d1 r2 d2
  rw [Lemmas.sep_eq, cos_arccos b1 b2]

theorem all3 {a b c : ℝ} (h1 : |a| ≤ 8) (h2 : |b| ≤ 8) (h3 : |c| ≤ 8) : ∀ x ∈ [a, b, c], |x| ≤ 8 := by
  intro x hx
  simp only [List.mem_cons, List.not_mem_nil, or_false] at hx
  rcases hx with rfl | rfl | rfl <;> assumption

theorem all5 {a b c d e : ℝ} (h1 : |a| ≤ 8) (h2 : |b| ≤ 8) (h3 : |c| ≤ 8) (h4 : |d| ≤ 8) (h5 : |e| ≤ 8) : ∀ x ∈ [a, b, c, d, e], |x| ≤ 8 := by
  intro x hx
  simp only [List.mem_cons, List.not_mem_nil, or_false] at hx
  rcases hx with rfl | rfl | rfl | rfl | rfl <;> assumption

end Coord64v

open Coord64v Coord64

/-- EclToEq: the declination is 90° less the distance from the pole of the equator, which has ecliptic longitude 90° and latitude 90° − ε; it is a number, right
to 2·10⁻¹¹ radian, from 10′ from one pole to 10′ from the other, and when it is a number at all right to 3·10⁻⁷ radian. -/
theorem C191_EclToEq_partial {l : Trig} (hl : l.Ok) {f : Sep64.Inv} (hf : f.Ok) {lon β ε : ℝ} {out : Option ℝ} (h1 : |lon| ≤ 8) (h2 : |β| ≤ 8) (h3 : |ε| ≤ 8)
    (h : EclToEqDec l f lon β ε out) :
    (π / 1080 ≤ sep lon β (π / 2) (π / 2 - ε) → sep lon β (π / 2) (π / 2 - ε) ≤ π - π / 1080 →
      ∃ r, out = some r ∧ |r - (π / 2 - sep lon β (π / 2) (π / 2 - ε))| ≤ 2e-11) ∧
    (∀ r, out = some r → |r - (π / 2 - sep lon β (π / 2) (π / 2 - ε))| ≤ 3e-7) := by
  refine lat_run hl hf (all3 h1 h2 h3) ?_ (show within (List.replicate 3 (8 * 2 ^ 64, 0)) _ _ _ = true by decide +kernel) h
  rw [sep_dot]
  have e : sδ.val (vars [lon, β, ε]) = Real.sin β * Real.cos ε + Real.cos β * Real.sin ε * Real.sin lon := rfl
  rw [e, Real.sin_pi_div_two_sub, Real.cos_pi_div_two_sub, Real.cos_sub_pi_div_two]

/-- EqToEcl: likewise, the pole of the ecliptic has right ascension −90° and declination 90° − ε. -/
theorem C191_EqToEcl_partial {l : Trig} (hl : l.Ok) {f : Sep64.Inv} (hf : f.Ok) {α δ ε : ℝ} {out : Option ℝ} (h1 : |α| ≤ 8) (h2 : |δ| ≤ 8) (h3 : |ε| ≤ 8)
    (h : EqToEclLat l f α δ ε out) :
    (π / 1080 ≤ sep α δ (-(π / 2)) (π / 2 - ε) → sep α δ (-(π / 2)) (π / 2 - ε) ≤ π - π / 1080 →
      ∃ r, out = some r ∧ |r - (π / 2 - sep α δ (-(π / 2)) (π / 2 - ε))| ≤ 2e-11) ∧
    (∀ r, out = some r → |r - (π / 2 - sep α δ (-(π / 2)) (π / 2 - ε))| ≤ 3e-7) := by
  refine lat_run hl hf (all3 h1 h2 h3) ?_ (show within (List.replicate 3 (8 * 2 ^ 64, 0)) _ _ _ = true by decide +kernel) h
  rw [sep_dot]
  have e : sβ.val (vars [α, δ, ε]) = Real.sin δ * Real.cos ε - Real.cos δ * Real.sin ε * Real.sin α := rfl
  rw [e, Real.sin_pi_div_two_sub, Real.cos_pi_div_two_sub, sub_neg_eq_add, Real.cos_add_pi_div_two]
  ring

/-- HzToEq: the celestial pole has azimuth 180° from the South and altitude φ. -/
theorem C191_HzToEq_partial {l : Trig} (hl : l.Ok) {f : Sep64.Inv} (hf : f.Ok) {A h φ : ℝ} {out : Option ℝ} (h1 : |A| ≤ 8) (h2 : |h| ≤ 8) (h3 : |φ| ≤ 8)
    (ho : HzToEqDec l f A h φ out) :
    (π / 1080 ≤ sep A h π φ → sep A h π φ ≤ π - π / 1080 → ∃ r, out = some r ∧ |r - (π / 2 - sep A h π φ)| ≤ 2e-11) ∧
    (∀ r, out = some r → |r - (π / 2 - sep A h π φ)| ≤ 3e-7) := by
  refine lat_run hl hf (all3 h1 h2 h3) ?_ (show within (List.replicate 3 (8 * 2 ^ 64, 0)) _ _ _ = true by decide +kernel) ho
  rw [sep_dot]
  have e : sδh.val (vars [A, h, φ]) = Real.sin φ * Real.sin h - Real.cos φ * Real.cos h * Real.cos A := rfl
  rw [e, Real.cos_sub_pi]
  ring

/-- EqToHz: the zenith has hour angle 0 and declination φ; the hour angle is st − ψ − α. -/
theorem C191_EqToHz_partial {l : Trig} (hl : l.Ok) {f : Sep64.Inv} (hf : f.Ok) {st ψ α δ φ : ℝ} {out : Option ℝ} (h1 : |st| ≤ 8) (h2 : |ψ| ≤ 8) (h3 : |α| ≤ 8)
    (h4 : |δ| ≤ 8) (h5 : |φ| ≤ 8) (h : EqToHzAlt l f st ψ α δ φ out) :
    (π / 1080 ≤ sep (st - ψ - α) δ 0 φ → sep (st - ψ - α) δ 0 φ ≤ π - π / 1080 →
      ∃ r, out = some r ∧ |r - (π / 2 - sep (st - ψ - α) δ 0 φ)| ≤ 2e-11) ∧
    (∀ r, out = some r → |r - (π / 2 - sep (st - ψ - α) δ 0 φ)| ≤ 3e-7) := by
  refine lat_run hl hf (all5 h1 h2 h3 h4 h5) ?_ (show within (List.replicate 5 (8 * 2 ^ 64, 0)) _ _ _ = true by decide +kernel) h
  rw [sep_dot]
  have e : sh.val (vars [st, ψ, α, δ, φ]) = Real.sin φ * Real.sin δ + Real.cos φ * Real.cos δ * Real.cos (st - ψ - α) := rfl
  rw [e, sub_zero]
  ring

namespace Coord64v

theorem taylor18 {x : ℝ} (hx : |x| ≤ 1) :
    |Real.sin x - x * (1 - x * x / 6 * (1 - x * x / 20 * (1 - x * x / 42 * (1 - x * x / 72 * (1 - x * x / 110 * (1 - x * x / 156 * (1 - x * x / 210 * (1 - x * x / 272))))))))| ≤ 17e-18 * |x| ^ 19 ∧
    |Real.cos x - (1 - x * x / 2 * (1 - x * x / 12 * (1 - x * x / 30 * (1 - x * x / 56 * (1 - x * x / 90 * (1 - x * x / 132 * (1 - x * x / 182 * (1 - x * x / 240 * (1 - x * x / 306)))))))))| ≤ 17e-18 * |x| ^ 19 := by
  have hn : ‖(x : ℂ) * Complex.I‖ = |x| := by simp
  have h := Complex.exp_bound' (x := (x : ℂ) * Complex.I) (n := 19) (by rw [hn]; norm_num at *; linarith)
  rw [hn] at h
  have hb : |x| ^ 19 / (Nat.factorial 19 : ℝ) * 2 ≤ 17e-18 * |x| ^ 19 := by
    have this : (0 : ℝ) ≤ |x| ^ 19 := by positivity
    have hf : (Nat.factorial 19 : ℝ) = 121645100408832000 := by norm_num [Nat.factorial]
    rw [hf]
    generalize |x| ^ 19 = w at *
    norm_num
    linarith
  have e : Complex.exp ((x : ℂ) * Complex.I) - ∑ m ∈ Finset.range 19, ((x : ℂ) * Complex.I) ^ m / (Nat.factorial m : ℂ) =
      ((Real.cos x - (1 - x * x / 2 * (1 - x * x / 12 * (1 - x * x / 30 * (1 - x * x / 56 * (1 - x * x / 90 * (1 - x * x / 132 * (1 - x * x / 182 * (1 - x * x / 240 * (1 - x * x / 306))))))))) : ℝ) : ℂ) +
      ((Real.sin x - x * (1 - x * x / 6 * (1 - x * x / 20 * (1 - x * x / 42 * (1 - x * x / 72 * (1 - x * x / 110 * (1 - x * x / 156 * (1 - x * x / 210 * (1 - x * x / 272)))))))) : ℝ) : ℂ) * Complex.I := by
    rw [Complex.exp_mul_I]
    have i2 : Complex.I ^ 2 = -1 := Complex.I_sq
    have i3 : Complex.I ^ 3 = -Complex.I := by rw [pow_succ, i2]; ring
    have i4 : Complex.I ^ 4 = 1 := by rw [pow_succ, i3]; linear_combination -i2
    have i5 : Complex.I ^ 5 = Complex.I := by rw [pow_succ, i4]; ring
    have i6 : Complex.I ^ 6 = -1 := by rw [pow_succ, i5]; linear_combination i2
    have i7 : Complex.I ^ 7 = -Complex.I := by rw [pow_succ, i6]; ring
    have i8 : Complex.I ^ 8 = 1 := by rw [pow_succ, i7]; linear_combination -i2
    have i9 : Complex.I ^ 9 = Complex.I := by rw [pow_succ, i8]; ring
    have i10 : Complex.I ^ 10 = -1 := by rw [pow_succ, i9]; linear_combination i2
    have i11 : Complex.I ^ 11 = -Complex.I := by rw [pow_succ, i10]; ring
    have i12 : Complex.I ^ 12 = 1 := by rw [pow_succ, i11]; linear_combination -i2
    have i13 : Complex.I ^ 13 = Complex.I := by rw [pow_succ, i12]; ring
    have i14 : Complex.I ^ 14 = -1 := by rw [pow_succ, i13]; linear_combination i2
    have i15 : Complex.I ^ 15 = -Complex.I := by rw [pow_succ, i14]; ring
    have i16 : Complex.I ^ 16 = 1 := by rw [pow_succ, i15]; linear_combination -i2
    have i17 : Complex.I ^ 17 = Complex.I := by rw [pow_succ, i16]; ring
    have i18 : Complex.I ^ 18 = -1 := by rw [pow_succ, i17]; linear_combination i2
    simp only [Finset.sum_range_succ, Finset.sum_range_zero, mul_pow, i2, i3, i4, i5, i6, i7, i8, i9, i10, i11, i12, i13, i14, i15, i16, i17, i18]
    simp only [Nat.factorial]
    push_cast
    ring
  rw [e] at h
  exact Verif.Lemmas.TM.parts' (h.trans hb)

/-- Rounding of a number near S, a multiple of 2⁻ᵏ. -/
theorem fl_eq {x S : ℝ} (k : ℕ) (n : ℤ) (hk : k ≤ 1000) (hS : S = n * 2 ^ (-(k : ℤ))) (hn : |n| ≤ 2 ^ 53) (hx : 2 ^ (53 - (k : ℤ) - 1) ≤ x)
    (h : |x - S| < 2 ^ (-(k : ℤ)) / 2) : fl x = S := by
  have rS : Rep S := ⟨n, -k, hS, hn, by omega⟩
  have b := fl_best x rS
  have rp : Rep ((2 : ℝ) ^ (53 - (k : ℤ) - 1)) := ⟨2 ^ 52, -k, by
    rw [show (53 - (k : ℤ) - 1) = 52 + -k by ring, zpow_add₀ (by norm_num)]; norm_num, by norm_num, by omega⟩
  have l := fl_mono hx
  rw [fl_rep rp] at l
  obtain ⟨m, hm⟩ := Verif.Props.rep_grid (rep_fl x) k (l.trans (le_abs_self _))
  have pk := two_zpow_pos (-(k : ℤ))
  have d : |fl x - S| < 2 ^ (-(k : ℤ)) := by
    rw [abs_sub_comm] at b
    have t := abs_sub_le (fl x) x S
    rw [abs_sub_comm (fl x) x] at t
    rw [abs_sub_comm S x] at b
    linarith
  rw [hm, hS, ← sub_mul, abs_mul, abs_of_pos pk, mul_lt_iff_lt_one_left pk] at d
  have d2 : |m - n| < 1 := by exact_mod_cast d
  rw [Int.abs_lt_one_iff, sub_eq_zero] at d2
  rw [hm, hS, d2]

/-- A number more than half a unit above 1 is rounded above 1. -/
theorem fl_above {y : ℝ} (h0 : 1 + 1 / 2 ^ 53 < y) (h1 : y ≤ 1 + 1 / 2 ^ 52) : 1 < fl y := by
  have rS : Rep (1 + 1 / 2 ^ 52 : ℝ) := ⟨2 ^ 52 + 1, -52, by norm_num, by norm_num, by norm_num⟩
  have b := fl_best y rS
  rw [abs_of_nonneg (show (0 : ℝ) ≤ 1 + 1 / 2 ^ 52 - y by linarith)] at b
  have := (abs_le.mp b).1
  norm_num at *
  linarith

theorem s85 : fl (Real.sin (85 / 128)) = 5551327197430794 / 2 ^ 53 := by
  have t := (taylor18 (x := 85 / 128) (by norm_num [abs_of_pos])).1
  rw [abs_of_pos (by norm_num : (0 : ℝ) < 85 / 128)] at t
  norm_num at t
  obtain ⟨t1, t2⟩ := abs_le.mp t
  refine fl_eq 53 5551327197430794 (by norm_num) (by norm_num) (by norm_num) (by norm_num; linarith) ?_
  rw [abs_lt]
  norm_num
  constructor <;> linarith

theorem c85 : fl (Real.cos (85 / 128)) = 7093123766132370 / 2 ^ 53 := by
  have t := (taylor18 (x := 85 / 128) (by norm_num [abs_of_pos])).2
  rw [abs_of_pos (by norm_num : (0 : ℝ) < 85 / 128)] at t
  norm_num at t
  obtain ⟨t1, t2⟩ := abs_le.mp t
  refine fl_eq 53 7093123766132370 (by norm_num) (by norm_num) (by norm_num) (by norm_num; linarith) ?_
  rw [abs_lt]
  norm_num
  constructor <;> linarith

theorem cc85 : fl (7093123766132370 / 2 ^ 53 * (7093123766132370 / 2 ^ 53)) = 5585799019066846 / 2 ^ 53 := by
  refine fl_eq 53 5585799019066846 (by norm_num) (by norm_num) (by norm_num) (by norm_num) ?_
  rw [abs_lt]
  norm_num

theorem ss85 : fl (5551327197430794 / 2 ^ 53 * (5551327197430794 / 2 ^ 53)) = 6842800471348295 / 2 ^ 54 := by
  refine fl_eq 54 6842800471348295 (by norm_num) (by norm_num) (by norm_num) (by norm_num) ?_
  rw [abs_lt]
  norm_num

end Coord64v

/-- **Violation.** A star in the zenith: at latitude 85/128 radian (38° North), with a sine and a cosine rounded correctly, the altitude of a star of that declination on
the meridian is NaN, whichever way the expression is rounded. -/
theorem C191_zenith_violation {l : Trig} (hs : ∀ x, l.sin x = fl (Real.sin x)) (hc : ∀ x, l.cos x = fl (Real.cos x)) {f : Sep64.Inv} {st ψ α : ℝ} {out : Option ℝ}
    (hH : fl (fl (st - ψ) - α) = 0) (h : EqToHzAlt l f st ψ α (85 / 128) (85 / 128) out) : out = none := by
  obtain ⟨x, hx, rfl⟩ := h
  have hh : ∀ y, Run l (vars [st, ψ, α, 85 / 128, 85 / 128]) (cos (v 0 - v 1 - v 2)) y → y = 1 := by
    intro y hy
    cases hy with
    | cos u =>
      cases u with
      | sub u w =>
        cases w
        cases u with
        | sub u w =>
          cases u; cases w
          have : fl (fl (vars [st, ψ, α, 85 / 128, 85 / 128] 0 - vars [st, ψ, α, 85 / 128, 85 / 128] 1) - vars [st, ψ, α, 85 / 128, 85 / 128] 2) = 0 := hH
          rw [this, hc, Real.cos_zero, Sep64v.fl_one']
  have hS : ∀ y, Run l (vars [st, ψ, α, 85 / 128, 85 / 128]) (sin (v 4)) y → y = 5551327197430794 / 2 ^ 53 := by
    intro y hy
    cases hy with
    | sin u => cases u; rw [hs]; exact s85
  have hS' : ∀ y, Run l (vars [st, ψ, α, 85 / 128, 85 / 128]) (sin (v 3)) y → y = 5551327197430794 / 2 ^ 53 := by
    intro y hy
    cases hy with
    | sin u => cases u; rw [hs]; exact s85
  have hC : ∀ y, Run l (vars [st, ψ, α, 85 / 128, 85 / 128]) (cos (v 4) * cos (v 3)) y → y = 5585799019066846 / 2 ^ 53 := by
    intro y hy
    cases hy with
    | mul u w =>
      cases u with
      | cos u =>
        cases w with
        | cos w =>
          cases u; cases w
          rw [hc, hc]
          have : fl (Real.cos (vars [st, ψ, α, 85 / 128, 85 / 128] 4)) = 7093123766132370 / 2 ^ 53 := c85
          have h' : fl (Real.cos (vars [st, ψ, α, 85 / 128, 85 / 128] 3)) = 7093123766132370 / 2 ^ 53 := c85
          rw [this, h']; exact cc85
  have gt : 1 < x := by
    cases hx with
    | add a b =>
      cases a with
      | mul a1 a2 =>
        cases b with
        | mul b1 b2 =>
          rw [hS _ a1, hS' _ a2, hC _ b1, hh _ b2, mul_one, ss85]
          have : fl (5585799019066846 / 2 ^ 53) = 5585799019066846 / 2 ^ 53 := by rw [← cc85, fl_fl]
          rw [this]
          exact fl_above (by norm_num) (by norm_num)
    | addMul a b d =>
      cases a with
      | mul a1 a2 =>
        rw [hS _ a1, hS' _ a2, hC _ b, hh _ d, mul_one, ss85]
        exact fl_above (by norm_num) (by norm_num)
    | mulAdd a b d =>
      cases a with
      | mul a1 a2 =>
        rw [hS _ b, hS' _ d, hC _ a1, hh _ a2, mul_one]
        have : fl (5585799019066846 / 2 ^ 53) = 5585799019066846 / 2 ^ 53 := by rw [← cc85, fl_fl]
        rw [this]
        exact fl_above (by norm_num) (by norm_num)
  have : ¬ |x| ≤ 1 := by
    rw [abs_of_pos (by linarith)]; linarith
  simp [Coord64.asin, this]

/-- An ordinary star, 45° from the zenith on the meridian: the altitude is a number near 45°. -/
theorem C191_example {l : Trig} (hl : l.Ok) {f : Sep64.Inv} (hf : f.Ok) :
    sep (1 - 0 - 1) 0 0 (fl (π / 4)) = fl (π / 4) ∧ (∃ out, EqToHzAlt l f 1 0 1 0 (fl (π / 4)) out) ∧
    ∀ out, EqToHzAlt l f 1 0 1 0 (fl (π / 4)) out → ∃ r, out = some r ∧ |r - (π / 2 - fl (π / 4))| ≤ 2e-11 := by
  have hπ := pi_gt_d2
  have hπ4 := pi_lt_d2
  norm_num at hπ hπ4
  have e := fl_err (π / 4)
  rw [abs_of_pos (show 0 < π / 4 by linarith)] at e
  have e' : |fl (π / 4) - π / 4| ≤ 1 / 1000 := by
    refine e.trans ?_
    norm_num
    linarith
  obtain ⟨e1, e2⟩ := abs_le.mp e'
  have s : sep (1 - 0 - 1) 0 0 (fl (π / 4)) = fl (π / 4) := by
    rw [Lemmas.sep_eq, Real.sin_zero, Real.cos_zero, zero_mul, zero_add, one_mul]
    norm_num
    exact arccos_cos (by linarith) (by linarith)
  refine ⟨s, ?_, ?_⟩
  · obtain ⟨x, hx⟩ := run_exists l (vars [1, 0, 1, 0, fl (π / 4)]) sh
    exact ⟨_, x, hx, rfl⟩
  · intro out ho
    have a : |fl (π / 4)| ≤ 8 := by rw [abs_le]; constructor <;> linarith
    have := (C191_EqToHz_partial hl hf (by norm_num) (by norm_num) (by norm_num) (by norm_num) a ho).1
    rw [s] at this
    exact this (by linarith) (by linarith)

end Verif.Props
