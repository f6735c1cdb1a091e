import Verif.Model.Times64
import Verif.Model.Solstice
import Verif.Model.Deltat
import Verif.Model.Rise
import Verif.Props.Eclipse64
import Verif.Props.Solstice
/-
C187: equinoxes and solstices, the polynomials for ΔT and mean sidereal time in double precision.
-/
namespace Verif.Props

open Real Verif.Model Verif.Go.F64 Verif.Go.F64.Ex

/-- One variable, rounded. -/
theorem env_fl {x : ℝ} {m : ℕ} (h : |x| ≤ m) :
    ∀ i p, [(m * 2 ^ 64, m * 2 ^ 75 + 1)][i]? = some p → Fits ((fun _ => x : ℕ → ℝ) i) ((fun _ => fl x : ℕ → ℝ) i) p := by
  intro i p hp
  rcases i with _ | i
  · simp only [List.getElem?_cons_zero, Option.some.injEq] at hp
    subst hp
    constructor
    · dsimp only
      push_cast
      have : (m : ℝ) * 2 ^ 64 / 2 ^ 64 = m := by field_simp
      norm_num at this ⊢
      linarith
    · dsimp only
      refine (fl_err _).trans ?_
      have : |x| / 2 ^ 53 ≤ m / 2 ^ 53 := by gcongr
      push_cast
      rw [add_div]
      have e : (m : ℝ) * 2 ^ 75 / 2 ^ 128 = m / 2 ^ 53 := by
        rw [show (2 : ℝ) ^ 128 = 2 ^ 75 * 2 ^ 53 by norm_num, mul_comm (m : ℝ), mul_div_mul_left _ _ (by norm_num)]
      norm_num at e this ⊢
      linarith
  · simp at hp

namespace Solstice64v

open Solstice64

/-- The coefficients as the model has them. -/
noncomputable def coef (c : List ℤ) : List ℝ := c.map fun n => (n : ℝ) / 100000

theorem terms_v : Solstice.terms = terms.map fun t => ((t.1 : ℝ), (t.2.1 : ℝ) / 100, (t.2.2 : ℝ) / 1000) := by
  simp only [Solstice.terms, terms, List.map]
  norm_num

theorem J0_v (y : ℝ) (a b c d e : ℤ) : (J0 [a, b, c, d, e]).val (fun _ => y) = hornerR (y * 0.001) (coef [a, b, c, d, e]) := by
  simp only [J0, horner, List.map, val_add, val_mul, val_q, val_v, hornerR, coef]
  norm_num

theorem T_v (y : ℝ) (c : List ℤ) : (T c).val (fun _ => y) = J2000Century ((J0 c).val fun _ => y) := by
  simp only [T, val_div, val_sub, val_q, J2000Century]; norm_num

theorem W_v (y : ℝ) (c : List ℤ) : (W c).val (fun _ => y) = 35999.373 * π / 180 * (T c).val (fun _ => y) - 2.47 * π / 180 := by
  simp only [W, val_sub, val_mul, val_p]; norm_num; ring

theorem Δl_v (y : ℝ) (c : List ℤ) : (Δl c).val (fun _ => y) = 1 + 0.0334 * Real.cos ((W c).val fun _ => y) + 0.0007 * Real.cos (2 * (W c).val fun _ => y) := by
  simp only [Δl, val_add, val_mul, val_cos, val_q]; norm_num

theorem S_v (y : ℝ) (c : List ℤ) : (S c).val (fun _ => y) = series Real.cos (Solstice.terms.map fun t => (t.1, (t.2.1 + t.2.2 * (T c).val (fun _ => y)) * π / 180)) := by
  unfold S series
  rw [val_sumFrom, List.map_map, val_q, Int.cast_zero, zero_div, zero_add, terms_v, List.map_map, List.map_map, List.map_reverse, List.sum_reverse]
  congr 1
  apply List.map_congr_left
  intro t _
  simp only [Function.comp, val_mul, val_add, val_div, val_q, val_p, val_cos, Nat.cast_one, div_one, Nat.cast_ofNat, Int.cast_one, one_mul, Int.cast_ofNat]

/-- The value in exact arithmetic. -/
theorem eq_v (y : ℤ) (a b c d e : ℤ) : Solstice.eq y (coef [a, b, c, d, e]) =
    (J0 [a, b, c, d, e]).val (fun _ => (y : ℝ)) + (q 1 100000 * S [a, b, c, d, e]).val (fun _ => (y : ℝ)) / (Δl [a, b, c, d, e]).val (fun _ => (y : ℝ)) := by
  unfold Solstice.eq
  rw [val_mul, val_q, S_v, Δl_v, W_v, T_v, J0_v]
  norm_num

/-- What the analyser finds for a set of coefficients. -/
def ok (c : List ℤ) : Bool :=
  within [(1000 * 2 ^ 64, 0)] (J0 c) (2900000 * 2 ^ 64) 272225893536750770770699685945 && within [(1000 * 2 ^ 64, 0)] (q 1 100000 * S c) (2 ^ 64) 1361129467683753853853498429 &&
  within [(1000 * 2 ^ 64, 0)] (Δl c) (2 ^ 65) 1020847100762815390390123822

theorem ok_all : ok mc0 ∧ ok jc0 ∧ ok sc0 ∧ ok dc0 ∧ ok mc2 ∧ ok jc2 ∧ ok sc2 ∧ ok dc2 := by decide +kernel

theorem eq_close {l : Trig} (hl : l.Ok) {y : ℤ} (hy : |y| ≤ 1000) {a b c d e : ℤ} (hk : ok [a, b, c, d, e] = true) {out : ℝ}
    (h : Solstice64.eq l y [a, b, c, d, e] out) : |out - Solstice.eq y (coef [a, b, c, d, e])| ≤ 1.5e-9 := by
  obtain ⟨j, s, δ, hj, hs, hd, rfl⟩ := h
  have hy' : |(y : ℝ)| ≤ (1000 : ℕ) := by exact_mod_cast hy
  unfold ok at hk
  rw [Bool.and_eq_true, Bool.and_eq_true] at hk
  obtain ⟨⟨k1, k2⟩, k3⟩ := hk
  obtain ⟨j0, j1⟩ := within_bound hl (env_one hy') hj k1
  obtain ⟨s0, s1⟩ := within_bound hl (env_one hy') hs k2
  obtain ⟨-, d1⟩ := within_bound hl (env_one hy') hd k3
  rw [eq_v]
  have hden : 12 / 25 ≤ (Δl [a, b, c, d, e]).val (fun _ => (y : ℝ)) := by
    rw [Δl_v]
    have t1 := Real.neg_one_le_cos ((W [a, b, c, d, e]).val fun _ => (y : ℝ))
    have t2 := Real.neg_one_le_cos (2 * (W [a, b, c, d, e]).val fun _ => (y : ℝ))
    linarith
  generalize (J0 [a, b, c, d, e]).val (fun _ => (y : ℝ)) = J at *
  generalize (q 1 100000 * S [a, b, c, d, e]).val (fun _ => (y : ℝ)) = N at *
  generalize (Δl [a, b, c, d, e]).val (fun _ => (y : ℝ)) = D at *
  have hN : |N| ≤ 1 := by
    refine s0.trans ?_
    norm_num
  have j1' : |j - J| ≤ 8e-10 := j1.trans (by norm_num)
  have s1' : |s - N| ≤ 4e-12 := s1.trans (by norm_num)
  have d1' : |δ - D| ≤ 3e-12 := d1.trans (by norm_num)
  have j0' : |J| ≤ 2900000 := j0.trans (by norm_num)
  clear j1 s1 d1 j0 s0 hj hs hd k1 k2 k3
  have hq := div_close s1' d1' hden (by norm_num) (by norm_num) hN le_rfl
  have hq' : |fl (s / δ) - N / D| ≤ 3e-11 := hq.trans (by norm_num)
  have hND : |N / D| ≤ 3 := by
    have : 0 < D := by linarith
    rw [abs_div, abs_of_pos this, div_le_iff₀ this]
    linarith
  have hsum : |j + fl (s / δ)| ≤ 2900010 := by
    rw [abs_le] at j1' j0' hq' hND ⊢
    constructor <;> linarith [j1'.1, j1'.2, j0'.1, j0'.2, hq'.1, hq'.2, hND.1, hND.2]
  have hf := fl_err (j + fl (s / δ))
  have hf' : |fl (j + fl (s / δ)) - (j + fl (s / δ))| ≤ 4e-10 := by
    refine hf.trans ?_
    have : |j + fl (s / δ)| / 2 ^ 53 ≤ 2900010 / 2 ^ 53 := by gcongr
    norm_num at this ⊢
    linarith
  rw [abs_le] at j1' hq' hf' ⊢
  constructor <;> linarith [j1'.1, j1'.2, hq'.1, hq'.2, hf'.1, hf'.2]

theorem coef_v : coef mc0 = Solstice.mc0 ∧ coef jc0 = Solstice.jc0 ∧ coef sc0 = Solstice.sc0 ∧ coef dc0 = Solstice.dc0 ∧
    coef mc2 = Solstice.mc2 ∧ coef jc2 = Solstice.jc2 ∧ coef sc2 = Solstice.sc2 ∧ coef dc2 = Solstice.dc2 := by
  simp only [coef, mc0, jc0, sc0, dc0, mc2, jc2, sc2, dc2, List.map, Solstice.mc0, Solstice.jc0, Solstice.sc0, Solstice.dc0, Solstice.mc2, Solstice.jc2,
    Solstice.sc2, Solstice.dc2]
  norm_num

end Solstice64v

open Solstice64v in
/-- C187.  For every year from −1000 to 3000, March, June, September and December return the time which their formulas give to 1.5·10⁻⁹ day. -/
theorem C187_solstices (l : Trig) (hl : l.Ok) (y : ℤ) (h0 : -1000 ≤ y) (h1 : y ≤ 3000) (out : ℝ) :
    (Solstice64.March l y out → |out - Solstice.March y| ≤ 1.5e-9) ∧ (Solstice64.June l y out → |out - Solstice.June y| ≤ 1.5e-9) ∧
    (Solstice64.September l y out → |out - Solstice.September y| ≤ 1.5e-9) ∧ (Solstice64.December l y out → |out - Solstice.December y| ≤ 1.5e-9) := by
  obtain ⟨o1, o2, o3, o4, o5, o6, o7, o8⟩ := ok_all
  obtain ⟨c1, c2, c3, c4, c5, c6, c7, c8⟩ := coef_v
  unfold Solstice64.March Solstice64.June Solstice64.September Solstice64.December Solstice.March Solstice.June Solstice.September Solstice.December
  rw [← c1, ← c2, ← c3, ← c4, ← c5, ← c6, ← c7, ← c8]
  split_ifs with hy
  · have hy' : |y| ≤ 1000 := abs_le.mpr ⟨by omega, by omega⟩
    exact ⟨eq_close hl hy' o1, eq_close hl hy' o2, eq_close hl hy' o3, eq_close hl hy' o4⟩
  · have hy' : |y - 2000| ≤ 1000 := abs_le.mpr ⟨by omega, by omega⟩
    exact ⟨eq_close hl hy' o5, eq_close hl hy' o6, eq_close hl hy' o7, eq_close hl hy' o8⟩

/-- C187.  The seasons in double precision come in order and last from 87.9 to 95.1 days, for every year from −1000 to 2999. -/
theorem C187_seasons (l : Trig) (hl : l.Ok) (y : ℤ) (h0 : -1000 ≤ y) (h1 : y ≤ 2999) (m j s d m' : ℝ) (hm : Solstice64.March l y m) (hj : Solstice64.June l y j)
    (hs : Solstice64.September l y s) (hd : Solstice64.December l y d) (hm' : Solstice64.March l (y + 1) m') :
    (87.9 < j - m ∧ j - m < 95.1) ∧ (87.9 < s - j ∧ s - j < 95.1) ∧ (87.9 < d - s ∧ d - s < 95.1) ∧ (87.9 < m' - d ∧ m' - d < 95.1) := by
  have a := abs_le.mp ((C187_solstices l hl y h0 (by omega) m).1 hm)
  have b := abs_le.mp ((C187_solstices l hl y h0 (by omega) j).2.1 hj)
  have c := abs_le.mp ((C187_solstices l hl y h0 (by omega) s).2.2.1 hs)
  have e := abs_le.mp ((C187_solstices l hl y h0 (by omega) d).2.2.2 hd)
  have f := abs_le.mp ((C187_solstices l hl (y + 1) (by omega) (by omega) m').1 hm')
  obtain ⟨⟨p1, p2⟩, ⟨p3, p4⟩, ⟨p5, p6⟩, ⟨p7, p8⟩, -⟩ := C66_lengths y h0 h1
  refine ⟨⟨?_, ?_⟩, ⟨?_, ?_⟩, ⟨?_, ?_⟩, ?_, ?_⟩ <;> linarith [a.1, a.2, b.1, b.2, c.1, c.2, e.1, e.2, f.1, f.2]

/-! ΔT. -/

namespace Deltat64v

open Deltat64

theorem c2000_v (y : ℝ) : c2000.val (fun _ => y - 2000) = Deltat.c2000 y := by
  simp only [c2000, val_mul, val_v, val_q, Deltat.c2000]; norm_num

theorem jc1900_v (j : ℝ) : jc1900.val (fun _ => j - 2415020) = Deltat.jc1900 j := by
  simp only [jc1900, val_div, val_v, val_q, Deltat.jc1900]; norm_num

theorem before948_v (y : ℝ) : before948.val (fun _ => y - 2000) = Deltat.PolyBefore948 y := by
  simp only [before948, horner, val_add, val_mul, val_q, c2000_v, Deltat.PolyBefore948, hornerR]; norm_num

theorem from948_v (y : ℝ) : from948.val (fun _ => y - 2000) = Deltat.Poly948to1600 y := by
  simp only [from948, horner, val_add, val_mul, val_q, c2000_v, Deltat.Poly948to1600, hornerR]; norm_num

theorem p1_v (j : ℝ) : from1800to1997.val (fun _ => j - 2415020) = Deltat.Poly1800to1997 j := by
  simp only [from1800to1997, List.map, horner, val_add, val_mul, val_q, jc1900_v, Deltat.Poly1800to1997, hornerR]; norm_num

theorem p2_v (j : ℝ) : from1800to1899.val (fun _ => j - 2415020) = Deltat.Poly1800to1899 j := by
  simp only [from1800to1899, List.map, horner, val_add, val_mul, val_q, jc1900_v, Deltat.Poly1800to1899, hornerR]; norm_num

theorem p3_v (j : ℝ) : from1900to1997.val (fun _ => j - 2415020) = Deltat.Poly1900to1997 j := by
  simp only [from1900to1997, List.map, horner, val_add, val_mul, val_q, jc1900_v, Deltat.Poly1900to1997, hornerR]; norm_num

end Deltat64v

open Deltat64 Deltat64v in
/-- C187.  The polynomials in the year, for the years −4000 to 8000: to 3·10⁻¹⁰ second. -/
theorem C187_deltaT_year (l : Trig) (hl : l.Ok) (year out : ℝ) (h : |year - 2000| ≤ 6000) :
    (Run l (fun _ => fl (year - 2000)) before948 out → |out - Deltat.PolyBefore948 year| ≤ 3e-10) ∧
    (Run l (fun _ => fl (year - 2000)) from948 out → |out - Deltat.Poly948to1600 year| ≤ 3e-10) ∧
    (after2000 l year out → |out - Deltat.PolyAfter2000 year| ≤ 3e-10) := by
  have h' : |year - 2000| ≤ (6000 : ℕ) := by exact_mod_cast h
  have r948 : ∀ x, Run l (fun _ => fl (year - 2000)) from948 x → |Deltat.Poly948to1600 year| ≤ 98000 ∧ |x - Deltat.Poly948to1600 year| ≤ 1.3e-10 := by
    intro x hr
    have hw : within [(6000 * 2 ^ 64, 6000 * 2 ^ 75 + 1)] from948 (98000 * 2 ^ 64) 44236707699722000250238698966 = true := by decide +kernel
    obtain ⟨a, b⟩ := within_bound hl (env_fl h') hr hw
    rw [from948_v] at a b
    exact ⟨a.trans (by norm_num), b.trans (by norm_num)⟩
  refine ⟨?_, ?_, ?_⟩
  · intro hr
    have hw : within [(6000 * 2 ^ 64, 6000 * 2 ^ 75 + 1)] before948 (2 ^ 100) 102084710076281539039012382229 = true := by decide +kernel
    have b := (within_bound hl (env_fl h') hr hw).2
    rw [before948_v] at b
    exact b.trans (by norm_num)
  · intro hr
    exact (r948 out hr).2.trans (by norm_num)
  · rintro ⟨x, hx, hc⟩
    obtain ⟨a, b⟩ := r948 x hx
    unfold Deltat.PolyAfter2000
    rcases hc with ⟨hlt, t, ht, rfl⟩ | ⟨hge, rfl⟩
    · rw [if_pos hlt]
      have h2 : |year - 2100| ≤ (6100 : ℕ) := by
        push_cast
        rw [abs_le] at h ⊢
        constructor <;> linarith [h.1, h.2]
      have hw : within [(6100 * 2 ^ 64, 6100 * 2 ^ 75 + 1)] before2100 (2300 * 2 ^ 64) 340282366920938463463374607 = true := by decide +kernel
      obtain ⟨t0, t1⟩ := within_bound hl (env_fl h2) ht hw
      have tv : before2100.val (fun _ => year - 2100) = 0.37 * (year - 2100) := by
        simp only [before2100, val_mul, val_q, val_v]; norm_num
      rw [tv] at t0 t1
      have t1' : |t - 0.37 * (year - 2100)| ≤ 1e-12 := t1.trans (by norm_num)
      have t0' : |0.37 * (year - 2100)| ≤ 2300 := t0.trans (by norm_num)
      clear t0 t1 hw
      generalize Deltat.Poly948to1600 year = P at *
      generalize 0.37 * (year - 2100) = t' at *
      have hsum : |x + t| ≤ 101000 := by
        rw [abs_le] at a b t0' t1' ⊢
        constructor <;> linarith [a.1, a.2, b.1, b.2, t0'.1, t0'.2, t1'.1, t1'.2]
      have hf : |fl (x + t) - (x + t)| ≤ 2e-11 := by
        refine (fl_err _).trans ?_
        have : |x + t| / 2 ^ 53 ≤ 101000 / 2 ^ 53 := by gcongr
        norm_num at this ⊢
        linarith
      rw [abs_le] at b t1' hf ⊢
      constructor <;> linarith [b.1, b.2, t1'.1, t1'.2, hf.1, hf.2]
    · rw [if_neg hge]
      exact b.trans (by norm_num)

open Deltat64 Deltat64v in
/-- C187.  The polynomials in the date, within 37000 days of 1900: to 2·10⁻¹⁰, 4·10⁻⁸ and 5·10⁻⁹ second. -/
theorem C187_deltaT_date (l : Trig) (hl : l.Ok) (jde out : ℝ) (h : |jde - 2415020| ≤ 37000) :
    (Run l (fun _ => fl (jde - 2415020)) from1800to1997 out → |out - Deltat.Poly1800to1997 jde| ≤ 2e-10) ∧
    (Run l (fun _ => fl (jde - 2415020)) from1800to1899 out → |out - Deltat.Poly1800to1899 jde| ≤ 4e-8) ∧
    (Run l (fun _ => fl (jde - 2415020)) from1900to1997 out → |out - Deltat.Poly1900to1997 jde| ≤ 5e-9) := by
  have h' : |jde - 2415020| ≤ (37000 : ℕ) := by exact_mod_cast h
  refine ⟨?_, ?_, ?_⟩
  · intro hr
    have hw : within [(37000 * 2 ^ 64, 37000 * 2 ^ 75 + 1)] from1800to1997 (2 ^ 100) 68056473384187692692674921486 = true := by decide +kernel
    have b := (within_bound hl (env_fl h') hr hw).2
    rw [p1_v] at b
    exact b.trans (by norm_num)
  · intro hr
    have hw : within [(37000 * 2 ^ 64, 37000 * 2 ^ 75 + 1)] from1800to1899 (2 ^ 100) 13611294676837538538534984297270 = true := by decide +kernel
    have b := (within_bound hl (env_fl h') hr hw).2
    rw [p2_v] at b
    exact b.trans (by norm_num)
  · intro hr
    have hw : within [(37000 * 2 ^ 64, 37000 * 2 ^ 75 + 1)] from1900to1997 (2 ^ 100) 1701411834604692317316873037158 = true := by decide +kernel
    have b := (within_bound hl (env_fl h') hr hw).2
    rw [p3_v] at b
    exact b.trans (by norm_num)

/-! Sidereal time. -/

/-- A large number is a multiple of a power of 2. -/
theorem rep_grid {x : ℝ} (h : Rep x) (k : ℕ) (hx : 2 ^ (53 - (k : ℤ) - 1) ≤ |x|) : ∃ n : ℤ, x = n * 2 ^ (-(k : ℤ)) := by
  obtain ⟨m, e, rfl, hm, -⟩ := h
  rcases le_or_gt (-(k : ℤ)) e with he | he
  · obtain ⟨j, hj⟩ : ∃ j : ℕ, e = j + -(k : ℤ) := ⟨(e + k).toNat, by omega⟩
    refine ⟨m * 2 ^ j, ?_⟩
    rw [hj, zpow_add₀ (by norm_num), zpow_natCast]
    push_cast
    ring
  · -- then x is the least number of the binade
    have hm' : |(m : ℝ)| ≤ 2 ^ (53 : ℤ) := by
      have : ((|m| : ℤ) : ℝ) ≤ ((2 ^ 53 : ℤ) : ℝ) := Int.cast_le.mpr hm
      rw [Int.cast_abs] at this
      refine this.trans ?_
      norm_num
    rw [abs_mul, abs_of_pos (two_zpow_pos e)] at hx
    have he2 : e = -(k : ℤ) - 1 := by
      by_contra hne
      have : (2 : ℝ) ^ e ≤ 2 ^ (-(k : ℤ) - 2) := zpow_le_zpow_right₀ (by norm_num) (by omega)
      have h3 : |(m : ℝ)| * 2 ^ e ≤ 2 ^ (53 : ℤ) * 2 ^ (-(k : ℤ) - 2) := mul_le_mul hm' this (by positivity) (by positivity)
      rw [← zpow_add₀ (by norm_num)] at h3
      have h4 : (2 : ℝ) ^ (53 + (-(k : ℤ) - 2)) < 2 ^ (53 - (k : ℤ) - 1) := zpow_lt_zpow_right₀ (by norm_num) (by omega)
      linarith
    rw [he2] at hx ⊢
    have hm2 : 2 ^ (53 : ℤ) ≤ |(m : ℝ)| := by
      rw [show (53 - (k : ℤ) - 1) = 53 + (-(k : ℤ) - 1) by ring, zpow_add₀ (by norm_num)] at hx
      exact le_of_mul_le_mul_right hx (by positivity)
    have hme : |(m : ℝ)| = 2 ^ (53 : ℤ) := le_antisymm hm' hm2
    rcases abs_eq (by positivity) |>.mp hme with h | h
    · refine ⟨2 ^ 52, ?_⟩
      rw [h, zpow_sub₀ (by norm_num)]
      push_cast
      norm_num
      ring
    · refine ⟨-2 ^ 52, ?_⟩
      rw [h, zpow_sub₀ (by norm_num)]
      push_cast
      norm_num
      ring

theorem grid_half {x : ℝ} {k : ℕ} (hk : 1 ≤ k) (hk2 : k ≤ 1000) (h : ∃ n : ℤ, x = n * 2 ^ (-(k : ℤ))) (hx : |x + 0.5| ≤ 2 ^ (53 - (k : ℤ))) : Rep (x + 0.5) := by
  obtain ⟨n, hn⟩ := h
  refine rep_of (k := -(k : ℤ)) (n + 2 ^ (k - 1)) (by omega) ?_ (by rwa [← sub_eq_add_neg])
  rw [hn]
  push_cast
  rw [add_mul, ← zpow_natCast, ← zpow_add₀ (by norm_num)]
  congr 1
  rw [show ((k - 1 : ℕ) : ℤ) + -(k : ℤ) = -1 by omega]
  norm_num

/-- The half day: exact, but for dates of which the half day crosses 2²¹; the day is right always. -/
theorem half_day {jd : ℝ} (hr : Rep jd) (h0 : 2 ^ 20 ≤ jd) (h1 : jd ≤ 2 ^ 22 - 1) : |fl (jd + 0.5) - (jd + 0.5)| ≤ 2.4e-10 ∧ ⌊fl (jd + 0.5)⌋ = ⌊jd + 0.5⌋ ∧
    (jd ∉ Set.Ico (2 ^ 21 - 0.5 : ℝ) (2 ^ 21) → fl (jd + 0.5) = jd + 0.5) := by
  norm_num at h0 h1
  have habs : |jd| = jd := abs_of_nonneg (by linarith)
  have exact : Rep (jd + 0.5) → |fl (jd + 0.5) - (jd + 0.5)| ≤ 2.4e-10 ∧ ⌊fl (jd + 0.5)⌋ = ⌊jd + 0.5⌋ ∧
      (jd ∉ Set.Ico (2 ^ 21 - 0.5 : ℝ) (2 ^ 21) → fl (jd + 0.5) = jd + 0.5) := by
    intro h
    rw [fl_rep h, sub_self, abs_zero]
    exact ⟨by norm_num, rfl, fun _ => rfl⟩
  rcases le_or_gt jd (2097152 - 0.5) with hc | hc
  · apply exact
    refine grid_half (k := 32) (by norm_num) (by norm_num) (rep_grid hr 32 ?_) ?_
    · rw [habs]; norm_num; linarith
    · rw [abs_of_nonneg (by linarith)]; norm_num at hc ⊢; linarith
  · rcases le_or_gt 2097152 jd with hd | hd
    · apply exact
      refine grid_half (k := 31) (by norm_num) (by norm_num) (rep_grid hr 31 ?_) ?_
      · rw [habs]; norm_num; linarith
      · rw [abs_of_nonneg (by linarith)]; norm_num; linarith
    · have hf := fl_err (jd + 0.5)
      have he : |fl (jd + 0.5) - (jd + 0.5)| ≤ 2.4e-10 := by
        refine hf.trans ?_
        rw [abs_of_nonneg (by linarith)]
        have : (jd + 0.5) / 2 ^ 53 ≤ 2097153 / 2 ^ 53 := by gcongr; linarith
        norm_num at this ⊢
        linarith
      refine ⟨he, ?_, fun hn => absurd ⟨by norm_num at hc ⊢; linarith, by norm_num; linarith⟩ hn⟩
      have r0 : Rep (2097152 : ℝ) := by exact_mod_cast rep_int (n := 2097152) (by norm_num)
      have lo := le_fl r0 (show 2097152 ≤ jd + 0.5 by linarith)
      have hi := (abs_le.mp he).2
      have e1 : ⌊jd + 0.5⌋ = 2097152 := by
        rw [Int.floor_eq_iff]; push_cast; constructor <;> linarith
      rw [e1, Int.floor_eq_iff]
      push_cast
      constructor <;> linarith

theorem poly_v (jd : ℝ) : Sidereal64.poly.val (fun _ => jd - 2451545) = hornerR (J2000Century jd) Sidereal.iau82 := by
  simp only [Sidereal64.poly, horner, val_add, val_mul, val_div, val_v, val_q, J2000Century, Sidereal.iau82, hornerR]; norm_num

/-- C187.  Mean sidereal time before the reduction to one day: for every date from 2²⁰ to 2²² − 1 (the years −1841 to 6771), the time at 0h is right to
2.5·10⁻⁷ second and the time at the moment to 4·10⁻⁷ second; in particular the calendar day is never mistaken.  `day` is unit.TimeFromDay. -/
theorem C187_sidereal (l : Trig) (hl : l.Ok) (day : ℝ → ℝ) (hday : ∀ f, 0 ≤ f → f ≤ 1 → |day f - f * 86400| ≤ 2e-11) (jd : ℝ) (hr : Rep jd)
    (h0 : 2 ^ 20 ≤ jd) (h1 : jd ≤ 2 ^ 22 - 1) :
    (∀ s t, Sidereal64.mean0UT l day jd s t → |s - (Sidereal.mean0UT jd).1| ≤ 2.5e-7 ∧ |t - (Sidereal.mean0UT jd).2| ≤ 2.1e-5) ∧
    (∀ out, Sidereal64.mean l day jd out → |out - Sidereal.mean jd| ≤ 2.2e-5) ∧
    (jd ∉ Set.Ico (2 ^ 21 - 0.5 : ℝ) (2 ^ 21) → ∀ out, Sidereal64.mean l day jd out → |out - Sidereal.mean jd| ≤ 4e-7) := by
  obtain ⟨e1, e2, e3⟩ := half_day hr h0 h1
  norm_num at h0 h1
  have hj : (0 : ℝ) ≤ jd + 0.5 := by linarith
  have hm : Sidereal.mean0UT jd = (hornerR (J2000Century (⌊jd + 0.5⌋ - 0.5)) Sidereal.iau82, (jd + 0.5 - ⌊jd + 0.5⌋) * 86400) := by
    simp only [Sidereal.mean0UT, Sidereal.jdToCFrac, Verif.Go.modf, Verif.Go.trunc_nonneg hj]
  have hmean : Sidereal.mean jd = (Sidereal.mean0UT jd).1 + (Sidereal.mean0UT jd).2 * 1.00273790935 := rfl
  set x := fl (jd + 0.5) with hx
  set n := ⌊jd + 0.5⌋ with hn
  have n1 := Int.floor_le (jd + 0.5)
  have n2 := Int.lt_floor_add_one (jd + 0.5)
  have x1 := Int.floor_le x
  have x2 := Int.lt_floor_add_one x
  rw [e2] at x1 x2
  rw [← hn] at n1 n2
  have nlo : (1048576 : ℤ) ≤ n := by
    have : (1048575 : ℝ) < n := by linarith
    have : (1048575 : ℤ) < n := by exact_mod_cast this
    omega
  have nhi : n ≤ 4194304 := by
    have : (n : ℝ) ≤ 4194304 := by linarith
    exact_mod_cast this
  have r1 : fl ((n : ℝ) - 0.5) = n - 0.5 := by
    apply fl_rep
    refine ⟨2 * n - 1, -1, by push_cast; norm_num; ring, ?_, by norm_num⟩
    rw [abs_le]; constructor <;> omega
  have r2 : fl ((n : ℝ) - 0.5 - 2451545) = n - 0.5 - 2451545 := by
    apply fl_rep
    refine ⟨2 * n - 1 - 2 * 2451545, -1, by push_cast; norm_num; ring, ?_, by norm_num⟩
    rw [abs_le]; constructor <;> omega
  have nlo' : (1048576 : ℝ) ≤ n := by exact_mod_cast nlo
  have nhi' : (n : ℝ) ≤ 4194304 := by exact_mod_cast nhi
  have henv : |((n : ℝ) - 0.5 - 2451545)| ≤ (1800000 : ℕ) := by
    push_cast
    rw [abs_le]; constructor <;> linarith
  have zero : ∀ s t, Sidereal64.mean0UT l day jd s t → |(Sidereal.mean0UT jd).1| ≤ 430000000 ∧ |s - (Sidereal.mean0UT jd).1| ≤ 2.4e-7 ∧
      |t - (x - n) * 86400| ≤ 2e-11 := by
    rintro s t ⟨hs, ht⟩
    rw [← hx, e2] at ht
    rw [← hx, e2, r1, r2] at hs
    have hw : within [(1800000 * 2 ^ 64, 0)] Sidereal64.poly (430000000 * 2 ^ 64) 81667768061025231231209905783624 = true := by decide +kernel
    obtain ⟨a, b⟩ := within_bound hl (env_one henv) hs hw
    rw [poly_v] at a b
    rw [hm]
    refine ⟨a.trans (by norm_num), b.trans (by norm_num), ?_⟩
    rw [ht]
    exact hday _ (by linarith) (by linarith)
  have hm2 : (Sidereal.mean0UT jd).2 = (jd + 0.5 - n) * 86400 := by rw [hm]
  -- the whole, in terms of the error of the half day
  have whole : ∀ out, Sidereal64.mean l day jd out → |out - ((Sidereal.mean0UT jd).1 + (x - n) * 86400 * 1.00273790935)| ≤ 4e-7 := by
    rintro out ⟨s, t, hst, hout⟩
    obtain ⟨z0, z1, z2⟩ := zero s t hst
    have hc := fl_err 1.00273790935
    set c := fl 1.00273790935 with hcd
    have hc' : |c - 1.00273790935| ≤ 1.2e-16 := by
      refine hc.trans ?_
      rw [abs_of_pos (by norm_num)]; norm_num
    generalize hS : (Sidereal.mean0UT jd).1 = S at *
    have hf0 : 0 ≤ (x - n) * 86400 := by nlinarith
    have hf1 : (x - n) * 86400 ≤ 86400 := by nlinarith
    generalize hF : (x - n) * 86400 = F at *
    have z2' := abs_le.mp z2
    have hc2 := abs_le.mp hc'
    have htc : |t * c - F * 1.00273790935| ≤ 4e-11 := by
      have e : t * c - F * 1.00273790935 = (t - F) * 1.00273790935 + t * (c - 1.00273790935) := by ring
      rw [e]
      refine (abs_add_le _ _).trans ?_
      rw [abs_mul, abs_mul, abs_of_pos (by norm_num : (0 : ℝ) < 1.00273790935)]
      have t1 : |t| ≤ 86401 := abs_le.mpr ⟨by linarith, by linarith⟩
      have t2 := mul_le_mul t1 hc' (abs_nonneg _) (by norm_num)
      linarith
    have htc' := abs_le.mp htc
    have z1' := abs_le.mp z1
    have z0' := abs_le.mp z0
    rcases hout with h | h
    · have f1 : |fl (t * c) - t * c| ≤ 2e-11 := by
        refine (fl_err _).trans ?_
        have : |t * c| ≤ 90000 := abs_le.mpr ⟨by linarith, by linarith⟩
        have : |t * c| / 2 ^ 53 ≤ 90000 / 2 ^ 53 := by gcongr
        norm_num at this ⊢
        linarith
      have f1' := abs_le.mp f1
      have f2 : |fl (s + fl (t * c)) - (s + fl (t * c))| ≤ 5e-8 := by
        refine (fl_err _).trans ?_
        have : |s + fl (t * c)| ≤ 430100000 := abs_le.mpr ⟨by linarith, by linarith⟩
        have : |s + fl (t * c)| / 2 ^ 53 ≤ 430100000 / 2 ^ 53 := by gcongr
        norm_num at this ⊢
        linarith
      have f2' := abs_le.mp f2
      rw [h, abs_le]
      constructor <;> linarith
    · have f2 : |fl (s + t * c) - (s + t * c)| ≤ 5e-8 := by
        refine (fl_err _).trans ?_
        have : |s + t * c| ≤ 430100000 := abs_le.mpr ⟨by linarith, by linarith⟩
        have : |s + t * c| / 2 ^ 53 ≤ 430100000 / 2 ^ 53 := by gcongr
        norm_num at this ⊢
        linarith
      have f2' := abs_le.mp f2
      rw [h, abs_le]
      constructor <;> linarith
  have e1' := abs_le.mp e1
  refine ⟨?_, ?_, ?_⟩
  · intro s t hst
    obtain ⟨-, z1, z2⟩ := zero s t hst
    refine ⟨z1.trans (by norm_num), ?_⟩
    rw [hm2]
    have z2' := abs_le.mp z2
    rw [abs_le]
    constructor <;> linarith
  · intro out ho
    have w := abs_le.mp (whole out ho)
    rw [hmean, hm2, abs_le]
    constructor <;> linarith
  · intro hnot out ho
    have w := whole out ho
    rw [e3 hnot] at w
    rw [hmean, hm2]
    exact w

/-- A case: the equinox of March 2000, ΔT in the year 2000 and sidereal time at J2000 can be computed, and are near the values of the formulas. -/
theorem C187_example : ∃ l : Trig, l.Ok ∧ (∃ out, Solstice64.March l 2000 out ∧ |out - Solstice.March 2000| ≤ 1.5e-9) ∧
    (∃ out, Deltat64.after2000 l 2000 out ∧ |out - Deltat.PolyAfter2000 2000| ≤ 3e-10) ∧
    ∃ out, Sidereal64.mean l (fun f => fl (f * 86400)) 2451545 out ∧ |out - Sidereal.mean 2451545| ≤ 4e-7 := by
  have hl := trig_ok
  set l : Trig := ⟨fun x => fl (Real.sin x), fun x => fl (Real.cos x)⟩
  refine ⟨l, hl, ?_, ?_, ?_⟩
  · obtain ⟨j, hj⟩ := run_exists l (fun _ => ((2000 - 2000 : ℤ) : ℝ)) (Solstice64.J0 Solstice64.mc2)
    obtain ⟨s, hs⟩ := run_exists l (fun _ => ((2000 - 2000 : ℤ) : ℝ)) (q 1 100000 * Solstice64.S Solstice64.mc2)
    obtain ⟨d, hd⟩ := run_exists l (fun _ => ((2000 - 2000 : ℤ) : ℝ)) (Solstice64.Δl Solstice64.mc2)
    have h : Solstice64.March l 2000 (fl (j + fl (s / d))) := by
      unfold Solstice64.March
      rw [if_neg (by norm_num)]
      exact ⟨j, s, d, hj, hs, hd, rfl⟩
    exact ⟨_, h, (C187_solstices l hl 2000 (by norm_num) (by norm_num) _).1 h⟩
  · obtain ⟨x, hx⟩ := run_exists l (fun _ => fl ((2000 : ℝ) - 2000)) Deltat64.from948
    obtain ⟨t, ht⟩ := run_exists l (fun _ => fl ((2000 : ℝ) - 2100)) Deltat64.before2100
    have h : Deltat64.after2000 l 2000 (fl (x + t)) := ⟨x, hx, Or.inl ⟨by norm_num, t, ht, rfl⟩⟩
    exact ⟨_, h, (C187_deltaT_year l hl 2000 _ (by norm_num)).2.2 h⟩
  · obtain ⟨s, hs⟩ := run_exists l (fun _ => fl (fl (⌊fl ((2451545 : ℝ) + 0.5)⌋ - 0.5) - 2451545)) Sidereal64.poly
    have h : Sidereal64.mean l (fun f => fl (f * 86400)) 2451545 _ := ⟨s, _, ⟨hs, rfl⟩, Or.inl rfl⟩
    refine ⟨_, h, (C187_sidereal l hl _ ?_ 2451545 (by exact_mod_cast rep_int (n := 2451545) (by norm_num)) (by norm_num) (by norm_num)).2.2 ?_ _ h⟩
    · intro f f0 f1
      refine (fl_err _).trans ?_
      have : |f * 86400| ≤ 86400 := abs_le.mpr ⟨by linarith, by linarith⟩
      have : |f * 86400| / 2 ^ 53 ≤ 86400 / 2 ^ 53 := by gcongr
      norm_num at this ⊢
      linarith
    · norm_num

end Verif.Props
