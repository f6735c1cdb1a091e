import Mathlib.Tactic
import Verif.Model.Length64
import Verif.Props.Coord64
import Verif.Props.Fit64
/-!
Property C203: the loop of `Length4` in double precision.
-/
namespace Verif.Props.Length64v

open Verif.Go.F64 Verif.Model.Kepler64 Verif.Model.Length64 Verif.Props.Fit64v

/-! ### The ratio m is between 0 and 1 -/

theorem rep_one : Rep 1 := by
  have := rep_int (n := 1) (by norm_num)
  simpa using this

theorem fl_nonneg {x : ℝ} (h : 0 ≤ x) : 0 ≤ fl x := fl_zero ▸ fl_mono h

theorem fl_le_one {x : ℝ} (h : x ≤ 1) : fl x ≤ 1 := fl_le rep_one h

theorem root_range {e : ℝ} {s : Option ℝ} (h0 : 0 ≤ e) (h1 : e ≤ 1) (h : Root e s) : ∃ x, s = some x ∧ 0 ≤ x ∧ x ≤ 1 := by
  obtain ⟨h, hh, rfl⟩ := h
  have hee : e * e ≤ 1 := by nlinarith
  have hee0 := mul_nonneg h0 h0
  have : 0 ≤ h ∧ h ≤ 1 := by
    rcases hh with rfl | rfl
    · have a := fl_le_one hee
      have b := fl_nonneg hee0
      exact ⟨fl_nonneg (by linarith), fl_le_one (by linarith)⟩
    · exact ⟨fl_nonneg (by linarith), fl_le_one (by linarith)⟩
  rw [if_neg (by linarith)]
  exact ⟨_, rfl, fl_nonneg (Real.sqrt_nonneg _), fl_le_one (Real.sqrt_le_one.mpr this.2)⟩

theorem m_range {a e : ℝ} {m : Option ℝ} (ra : Rep a) (ha : 0 < a) (h0 : 0 ≤ e) (h1 : e ≤ 1) (h : M a e m) : ∃ x, m = some x ∧ 0 ≤ x ∧ x ≤ 1 := by
  obtain ⟨s, hs, hm⟩ := h
  obtain ⟨x, rfl, x0, x1⟩ := root_range h0 h1 hs
  obtain ⟨n, d, hn, hd, rfl⟩ := hm
  have p0 : 0 ≤ a * x := by positivity
  have p1 : a * x ≤ a := by nlinarith
  have q0 := fl_nonneg p0
  have q1 := fl_le ra p1
  have n1 : 0 ≤ n ∧ n ≤ a := by
    rcases hn with rfl | rfl
    · exact ⟨fl_nonneg (by linarith), fl_le ra (by linarith)⟩
    · exact ⟨fl_nonneg (by linarith), fl_le ra (by linarith)⟩
  have d1 : a ≤ d := by
    rcases hd with rfl | rfl
    · exact le_fl ra (by linarith)
    · exact le_fl ra (by linarith)
  refine ⟨_, rfl, fl_nonneg (div_nonneg n1.1 (by linarith)), fl_le_one ?_⟩
  rw [div_le_one (by linarith)]
  linarith

theorem m2_range {m : Option ℝ} (h : ∃ x, m = some x ∧ 0 ≤ x ∧ x ≤ 1) : ∃ x, m2 m = some x ∧ 0 ≤ x ∧ x ≤ 1 := by
  obtain ⟨x, rfl, h0, h1⟩ := h
  exact ⟨_, rfl, fl_nonneg (mul_nonneg h0 h0), fl_le_one (by nlinarith)⟩

/-! ### One round -/

/-- Terms fall like the inverse cube. -/
theorem decay {k t r : ℝ} (h1 : 1 ≤ k) (h2 : k ≤ 2 ^ 18) (ht0 : 0 ≤ t) (ht : t ≤ 1 / (4 * k ^ 3)) (hr0 : 0 ≤ r)
    (hr : r ≤ ((2 * k - 1) / (2 * k + 2)) ^ 2 * (1 + 1 / 2 ^ 53) + 1 / 2 ^ 500) :
    t * r ≤ 1 / (4 * (k + 1) ^ 3) ∧ t * r * (1 + 1 / 2 ^ 53) + 1 / 2 ^ 500 ≤ 1 / (4 * (k + 1) ^ 3) := by
  have hk : 0 < k := by linarith
  have hX : 1 / (4 * k ^ 3) * ((2 * k - 1) / (2 * k + 2)) ^ 2 = 1 / (4 * (k + 1) ^ 3) * (1 - (3 * k - 1) / (4 * k ^ 3)) := by
    rw [show 2 * k + 2 = 2 * (k + 1) by ring]
    field_simp
    ring
  have hg : 1 / 2 ^ 38 ≤ (3 * k - 1) / (4 * k ^ 3) := by
    rw [div_le_div_iff₀ (by positivity) (by positivity)]
    have : k * k ≤ 2 ^ 18 * 2 ^ 18 := mul_le_mul h2 h2 hk.le (by positivity)
    have : k * (k * k) ≤ k * (2 ^ 18 * 2 ^ 18) := mul_le_mul_of_nonneg_left this hk.le
    norm_num at *
    nlinarith
  have hg1 : (3 * k - 1) / (4 * k ^ 3) ≤ 1 := by
    rw [div_le_one (by positivity)]
    nlinarith [mul_nonneg hk.le (sq_nonneg (k - 1)), sq_nonneg (k - 1)]
  have hP8 : 1 / (4 * k ^ 3) ≤ 8 * (1 / (4 * (k + 1) ^ 3)) := by
    rw [mul_one_div, div_le_div_iff₀ (by positivity) (by positivity)]
    have : (k + 1) ^ 3 ≤ (2 * k) ^ 3 := pow_le_pow_left₀ (by linarith) (by linarith) 3
    nlinarith
  have hP : 1 / 2 ^ 60 ≤ 1 / (4 * (k + 1) ^ 3) := by
    refine one_div_le_one_div_of_le (by positivity) ?_
    have : (k + 1) ^ 3 ≤ (2 ^ 19) ^ 3 := pow_le_pow_left₀ (by linarith) (by norm_num at *; linarith) 3
    norm_num at *
    linarith
  have he : (1 : ℝ) / 2 ^ 500 ≤ 1 / 2 ^ 60 * (1 / 2 ^ 60) := by
    rw [one_div_mul_one_div, ← pow_add]
    exact one_div_le_one_div_of_le (by positivity) (pow_le_pow_right₀ (by norm_num) (by norm_num))
  have he0 : (0 : ℝ) ≤ 1 / 2 ^ 500 := by positivity
  have hq : 0 < 1 / (4 * k ^ 3) := by positivity
  have htr : t * r ≤ 1 / (4 * k ^ 3) * (((2 * k - 1) / (2 * k + 2)) ^ 2 * (1 + 1 / 2 ^ 53) + 1 / 2 ^ 500) := mul_le_mul ht hr hr0 hq.le
  rw [mul_add, ← mul_assoc, hX] at htr
  generalize (1 : ℝ) / 2 ^ 500 = ε at *
  generalize 1 / (4 * (k + 1) ^ 3) = P at *
  generalize (3 * k - 1) / (4 * k ^ 3) = g at *
  generalize 1 / (4 * k ^ 3) = Q at *
  have hP0 : 0 < P := lt_of_lt_of_le (by positivity) hP
  have hQe : Q * ε ≤ 8 * P * ε := mul_le_mul_of_nonneg_right hP8 he0
  have hε2 : ε ≤ 1 / 2 ^ 60 := he.trans (by norm_num)
  have hPε : P * ε ≤ P * (1 / 2 ^ 60) := mul_le_mul_of_nonneg_left hε2 hP0.le
  have hεP : ε ≤ P * (1 / 2 ^ 60) := he.trans (mul_le_mul_of_nonneg_right hP (by positivity))
  have hPg : P * (1 / 2 ^ 38) ≤ P * g := mul_le_mul_of_nonneg_left hg hP0.le
  have hPg1 : P * g ≤ P := by nlinarith
  have hb : t * r ≤ P * (1 - 1 / 2 ^ 40) := by
    refine htr.trans ?_
    rw [show P * (1 - g) * (1 + 1 / 2 ^ 53) = (P - P * g) * (1 + 1 / 2 ^ 53) by ring]
    norm_num at *
    linarith
  constructor
  · norm_num at *
    linarith
  · norm_num at *
    linarith

/-- What holds of the variables after n rounds. -/
structure Inv (n : ℕ) (s : St) (t s0 s1 : ℝ) : Prop where
  nf : s.nf = 2 * n - 1
  df : s.df = 2 * n + 2
  term : s.term = some t
  sum0 : s.sum0 = some s0
  sum1 : s.sum1 = some s1
  t0 : 0 ≤ t
  t1 : t ≤ 1 / (4 * ((n : ℝ) + 1) ^ 3)
  one : 1 ≤ s1
  hi : s1 ≤ 1 + 1 / 4 * (2 - 1 / ((n : ℝ) + 1)) + ((n : ℝ) + 1) / 2 ^ 53
  rep : Rep s1

theorem small_int {n : ℕ} (h : n ≤ 2 ^ 40) : fl (n : ℝ) = n := by
  have := fl_rep (rep_int (n := (n : ℤ)) (by
    rw [abs_of_nonneg (by positivity)]
    have : (n : ℤ) ≤ 2 ^ 40 := by exact_mod_cast h
    exact this.trans (by norm_num)))
  simpa using this

/-- The sum after one more term. -/
theorem sum_step {a p x : ℝ} (ha : 1 ≤ a) (hp : 0 ≤ p) (h : a + p < 2) (hx : x = fl (a + p)) : 1 ≤ x ∧ x ≤ a + p + 1 / 2 ^ 53 ∧ Rep x := by
  have hn := fl_near_lt (x := a + p) (n := 1) (by rw [abs_of_pos (by linarith)]; norm_num; linarith) (by norm_num)
  rw [← hx] at hn
  have hn' := abs_le.mp hn
  refine ⟨hx ▸ le_fl rep_one (by linarith), ?_, hx ▸ rep_fl _⟩
  norm_num at *
  linarith

theorem inv_start {h : ℝ} (h0 : 0 ≤ h) (h1 : h ≤ 1) {s : St} (hs : Start (some h) s) : ∃ t s0 s1, Inv 0 s t s0 s1 := by
  obtain ⟨a, b, c, d, e⟩ := hs
  obtain ⟨y, hy, hs1⟩ : ∃ y, MulAdd 1 h 0.25 y ∧ s.sum1 = some y := c
  have q0 : 0 ≤ fl (h * 0.25) := fl_nonneg (by positivity)
  have q1 : fl (h * 0.25) ≤ 0.25 := fl_le ⟨1, -2, by norm_num, by norm_num, by norm_num⟩ (by linarith)
  have key : ∃ p, 0 ≤ p ∧ p ≤ 0.25 ∧ y = fl (1 + p) := by
    rcases hy with rfl | rfl
    · exact ⟨_, q0, q1, rfl⟩
    · exact ⟨h * 0.25, by positivity, by linarith, rfl⟩
  obtain ⟨p, p0, p1, hp⟩ := key
  obtain ⟨r1, r2, r3⟩ := sum_step le_rfl p0 (by norm_num at *; linarith) hp
  refine ⟨_, 1, y, ⟨by rw [d]; norm_num, by rw [e]; norm_num, b, a, hs1, q0, ?_, r1, ?_, r3⟩⟩
  · norm_num at *; linarith
  · norm_num at *; linarith

/-- The product of the term and the factor, before and after rounding. -/
theorem term_step {n : ℕ} {h t : ℝ} (hn : n ≤ 2 ^ 17) (h0 : 0 ≤ h) (h1 : h ≤ 1) (t0 : 0 ≤ t) (t1 : t ≤ 1 / (4 * ((n : ℝ) + 1) ^ 3)) :
    let r := ratio (2 * (n + 1 : ℕ) - 1) (2 * (n + 1 : ℕ) + 2) h
    0 ≤ t * r ∧ t * r ≤ 1 / (4 * (((n + 1 : ℕ) : ℝ) + 1) ^ 3) ∧ 0 ≤ fl (t * r) ∧ fl (t * r) ≤ 1 / (4 * (((n + 1 : ℕ) : ℝ) + 1) ^ 3) := by
  intro r
  have hnr : (n : ℝ) ≤ 2 ^ 17 := by exact_mod_cast hn
  have hn0 : (0 : ℝ) ≤ n := by positivity
  set k : ℝ := ((n + 1 : ℕ) : ℝ) with hk
  have hkn : k = n + 1 := by rw [hk]; push_cast; ring
  have k1 : 1 ≤ k := by linarith
  have k2 : k ≤ 2 ^ 18 := by
    have : (2 : ℝ) ^ 17 + 1 ≤ 2 ^ 18 := by norm_num
    linarith
  have e1 : fl ((2 * k - 1) * (2 * k - 1)) = (2 * k - 1) * (2 * k - 1) := by
    have := small_int (n := (2 * n + 1) * (2 * n + 1)) (by
      have : 2 * n + 1 ≤ 2 ^ 19 := by norm_num at *; omega
      exact (Nat.mul_le_mul this this).trans (by norm_num))
    push_cast at this
    rw [hkn, show (2 * ((n : ℝ) + 1) - 1) = 2 * n + 1 by ring]
    exact this
  have e2 : fl ((2 * k + 2) * (2 * k + 2)) = (2 * k + 2) * (2 * k + 2) := by
    have := small_int (n := (2 * n + 4) * (2 * n + 4)) (by
      have : 2 * n + 4 ≤ 2 ^ 19 := by norm_num at *; omega
      exact (Nat.mul_le_mul this this).trans (by norm_num))
    push_cast at this
    rw [hkn, show (2 * ((n : ℝ) + 1) + 2) = 2 * n + 4 by ring]
    exact this
  have hsq : 0 ≤ (2 * k - 1) * (2 * k - 1) := mul_self_nonneg _
  have w0 : 0 ≤ fl ((2 * k - 1) * (2 * k - 1) * h) := fl_nonneg (mul_nonneg hsq h0)
  have w1 : fl ((2 * k - 1) * (2 * k - 1) * h) ≤ (2 * k - 1) * (2 * k - 1) := by
    have := fl_mono (by nlinarith : (2 * k - 1) * (2 * k - 1) * h ≤ (2 * k - 1) * (2 * k - 1))
    rwa [e1] at this
  have hr : r = fl (fl ((2 * k - 1) * (2 * k - 1) * h) / ((2 * k + 2) * (2 * k + 2))) := by
    show ratio (2 * k - 1) (2 * k + 2) h = _
    unfold ratio
    rw [e1, e2]
  have hd : 0 < (2 * k + 2) * (2 * k + 2) := by positivity
  have r0 : 0 ≤ r := hr ▸ fl_nonneg (div_nonneg w0 hd.le)
  have r1 : r ≤ ((2 * k - 1) / (2 * k + 2)) ^ 2 * (1 + 1 / 2 ^ 53) + 1 / 2 ^ 500 := by
    have hx : fl ((2 * k - 1) * (2 * k - 1) * h) / ((2 * k + 2) * (2 * k + 2)) ≤ ((2 * k - 1) / (2 * k + 2)) ^ 2 := by
      rw [div_pow, sq, sq]
      exact div_le_div_of_nonneg_right w1 hd.le
    have m := fl_mono hx
    rw [← hr] at m
    have t := (abs_le.mp (fl_tiny (((2 * k - 1) / (2 * k + 2)) ^ 2))).2
    rw [abs_of_nonneg (sq_nonneg _)] at t
    rw [mul_add, mul_one, mul_one_div]
    linarith
  rw [← hkn] at t1
  obtain ⟨d1, d2⟩ := decay k1 k2 t0 t1 r0 r1
  have p0 := mul_nonneg t0 r0
  refine ⟨p0, d1, fl_nonneg p0, ?_⟩
  have t := (abs_le.mp (fl_tiny (t * r))).2
  rw [abs_of_nonneg p0] at t
  rw [mul_add, mul_one, mul_one_div] at d2
  linarith

theorem inv_round {n : ℕ} {h t s0 s1 : ℝ} {s s' : St} (hn : n ≤ 2 ^ 17) (h0 : 0 ≤ h) (h1 : h ≤ 1) (hi : Inv n s t s0 s1) (hr : Round (some h) s s') :
    ∃ t' s1' p, Inv (n + 1) s' t' s1 s1' ∧ 0 ≤ p ∧ p ≤ 1 / (4 * (((n + 1 : ℕ) : ℝ) + 1) ^ 3) ∧ s1' = fl (s1 + p) := by
  obtain ⟨a, b, c, d, e⟩ := hr
  have nf : s'.nf = 2 * ((n + 1 : ℕ) : ℝ) - 1 := by
    rw [a, hi.nf]
    have := small_int (n := 2 * n + 1) (by norm_num at *; omega)
    push_cast at this ⊢
    rw [show 2 * (n : ℝ) - 1 + 2 = 2 * n + 1 by ring, this]
    ring
  have df : s'.df = 2 * ((n + 1 : ℕ) : ℝ) + 2 := by
    rw [b, hi.df]
    have := small_int (n := 2 * n + 4) (by norm_num at *; omega)
    push_cast at this ⊢
    rw [show 2 * (n : ℝ) + 2 + 2 = 2 * n + 4 by ring, this]
    ring
  rw [nf, df] at d e
  rw [hi.term] at d e
  rw [hi.sum1] at c e
  obtain ⟨y, hy, hs1⟩ : ∃ y, MulAdd s1 t (ratio (2 * ((n + 1 : ℕ) : ℝ) - 1) (2 * ((n + 1 : ℕ) : ℝ) + 2) h) y ∧ s'.sum1 = some y := e
  obtain ⟨q0, q1, q2, q3⟩ := term_step hn h0 h1 hi.t0 hi.t1
  have key : ∃ p, 0 ≤ p ∧ p ≤ 1 / (4 * (((n + 1 : ℕ) : ℝ) + 1) ^ 3) ∧ y = fl (s1 + p) := by
    rcases hy with rfl | rfl
    · exact ⟨_, q2, q3, rfl⟩
    · exact ⟨_, q0, q1, rfl⟩
  obtain ⟨p, p0, p1, hp⟩ := key
  have hnr : (n : ℝ) ≤ 2 ^ 17 := by exact_mod_cast hn
  have hn0 : (0 : ℝ) ≤ n := by positivity
  have hcube : 1 / (4 * (((n + 1 : ℕ) : ℝ) + 1) ^ 3) ≤ 1 / 4 * (1 / ((n : ℝ) + 1) - 1 / (((n + 1 : ℕ) : ℝ) + 1)) := by
    push_cast
    rw [show (n : ℝ) + 1 + 1 = n + 2 by ring, div_sub_div _ _ (by positivity) (by positivity), div_mul_div_comm, div_le_div_iff₀ (by positivity) (by positivity)]
    nlinarith [mul_nonneg hn0 hn0, mul_nonneg hn0 (mul_nonneg hn0 hn0)]
  have hhi := hi.hi
  have hpos : 0 < 1 / (((n + 1 : ℕ) : ℝ) + 1) := by positivity
  have hpos' : 0 < 1 / ((n : ℝ) + 1) := by positivity
  have hbound : ((n : ℝ) + 1) / 2 ^ 53 ≤ 1 / 4 := by
    have : ((n : ℝ) + 1) / 2 ^ 53 ≤ (2 ^ 17 + 1) / 2 ^ 53 := div_le_div_of_nonneg_right (by linarith) (by positivity)
    exact this.trans (by norm_num)
  have hlt : s1 + p < 2 := by
    generalize 1 / (((n + 1 : ℕ) : ℝ) + 1) = X at *
    generalize 1 / ((n : ℝ) + 1) = Y at *
    linarith
  obtain ⟨r1, r2, r3⟩ := sum_step hi.one p0 hlt hp
  refine ⟨_, y, p, ⟨nf, df, d, c, hs1, q2, q3, r1, ?_, r3⟩, p0, p1, hp⟩
  have hc : (((n + 1 : ℕ) : ℝ) + 1) / 2 ^ 53 = ((n : ℝ) + 1) / 2 ^ 53 + 1 / 2 ^ 53 := by push_cast; ring
  rw [hc]
  generalize 1 / (((n + 1 : ℕ) : ℝ) + 1) = X at *
  generalize 1 / ((n : ℝ) + 1) = Y at *
  linarith

theorem inv_after {h : ℝ} (h0 : 0 ≤ h) (h1 : h ≤ 1) {n : ℕ} (hn : n ≤ 2 ^ 17 + 1) {s : St} (hs : After (some h) n s) : ∃ t s0 s1, Inv n s t s0 s1 := by
  induction n generalizing s with
  | zero => exact inv_start h0 h1 hs
  | succ n ih =>
    obtain ⟨s', ha, -, hr⟩ := hs
    obtain ⟨t, s0, s1, hi⟩ := ih (by omega) ha
    obtain ⟨t', s1', p, hi', -⟩ := inv_round (by omega) h0 h1 hi hr
    exact ⟨_, _, _, hi'⟩

/-- A small term is lost. -/
theorem lost {a p : ℝ} (ra : Rep a) (h1 : 1 ≤ a) (h2 : a < 2) (hp : 0 ≤ p) (hp2 : p < 1 / 2 ^ 53) : fl (a + p) = a := by
  obtain ⟨m, k, e, hm, -⟩ := ra
  have hk : -53 ≤ k := by
    by_contra hc
    push Not at hc
    have h3 : (2 : ℝ) ^ k ≤ 2 ^ (-54 : ℤ) := zpow_le_zpow_right₀ (by norm_num) (by omega)
    have h4 : |(m : ℝ)| ≤ 2 ^ 53 := by exact_mod_cast hm
    have h5 : a ≤ 2 ^ 53 * 2 ^ (-54 : ℤ) := by
      rw [e]
      exact mul_le_mul ((le_abs_self _).trans h4) h3 (by positivity) (by positivity)
    norm_num at h5
    linarith
  have hint : ∃ n : ℤ, a = n * 2 ^ (-52 : ℤ) := by
    rcases eq_or_lt_of_le hk with h | h
    · have h4 : (m : ℝ) ≤ 2 ^ 53 := (le_abs_self _).trans (by exact_mod_cast hm)
      have : a = 1 := by
        rw [← h] at e
        norm_num at e h4
        have : a ≤ 1 := by rw [e]; linarith
        linarith
      exact ⟨2 ^ 52, by rw [this]; norm_num⟩
    · refine ⟨m * 2 ^ (k + 52).toNat, ?_⟩
      rw [e]
      push_cast
      rw [mul_assoc, ← zpow_natCast, Int.toNat_of_nonneg (by omega), ← zpow_add₀ (by norm_num)]
      congr 2
      ring
  obtain ⟨n, hn⟩ := hint
  refine Verif.Props.Coord64v.fl_eq (x := a + p) 52 n (by norm_num) hn ?_ (by norm_num; linarith) ?_
  · have : |(n : ℝ)| ≤ 2 ^ 53 := by
      have : (n : ℝ) = a * 2 ^ 52 := by rw [hn]; norm_num; ring
      rw [this, abs_of_pos (by positivity)]
      norm_num
      linarith
    exact_mod_cast this
  · rw [add_sub_cancel_left, abs_of_nonneg hp]
    norm_num at *
    linarith

/-- C203.  For every ellipse the loop of `Length4` ends in binary64, after at most 131073 rounds, whatever is fused. -/
theorem C203_ends_partial {a e : ℝ} (ra : Rep a) (ha : 0 < a) (h0 : 0 ≤ e) (h1 : e ≤ 1) {m : Option ℝ} (hm : M a e m) {n : ℕ} {s : St}
    (hs : After (m2 m) n s) : n ≤ 2 ^ 17 + 1 ∧ (n = 2 ^ 17 + 1 → ¬ Goes s) := by
  obtain ⟨h, hh, hh0, hh1⟩ := m2_range (m_range ra ha h0 h1 hm)
  rw [hh] at hs
  have key : ∀ s, After (some h) (2 ^ 17 + 1) s → ¬ Goes s := by
    intro s hs
    obtain ⟨s', ha, -, hr⟩ := hs
    obtain ⟨t, s0, s1, hi⟩ := inv_after hh0 hh1 (by norm_num) ha
    obtain ⟨t', s1', p, hi', p0, p1, hp⟩ := inv_round le_rfl hh0 hh1 hi hr
    rw [lost hi.rep hi.one (by
      have := hi.hi
      have : 0 < 1 / (((2 ^ 17 : ℕ) : ℝ) + 1) := by positivity
      norm_num at *
      linarith) p0 (lt_of_le_of_lt p1 (by norm_num))] at hp
    rw [Goes, not_not]
    exact ⟨s1, hi'.sum0, hp ▸ hi'.sum1⟩
  have tail : ∀ k s, ¬ After (some h) (2 ^ 17 + 1 + 1 + k) s := by
    intro k
    induction k with
    | zero =>
      rintro s ⟨s', ha, hg, -⟩
      exact key s' ha hg
    | succ k ih =>
      rintro s ⟨s', ha, -⟩
      exact ih s' ha
  refine ⟨?_, fun e => key s (e ▸ hs)⟩
  by_contra hc
  push Not at hc
  refine tail (n - (2 ^ 17 + 1 + 1)) s ?_
  rwa [show 2 ^ 17 + 1 + 1 + (n - (2 ^ 17 + 1 + 1)) = n by omega]

/-- C203.  `Length4` should return for all arguments.  With an eccentricity above 1 (by 2⁻¹⁰ at least) all sums are NaN and the loop goes on
after any number of rounds. -/
theorem C203_violation {a e : ℝ} (he : 1 + 1 / 2 ^ 10 ≤ e) {m : Option ℝ} (hm : M a e m) :
    (∀ n, ∃ s, After (m2 m) n s) ∧ (∀ n s, After (m2 m) n s → Goes s) ∧ ¬ ∃ n L, Length4 a e n L := by
  have hnone : ∀ m, M a e m → m = none := by
    rintro m ⟨s, ⟨h, hh, rfl⟩, hm⟩
    have hrep : Rep (1 + 1 / 2 ^ 10) := ⟨1025, -10, by norm_num, by norm_num, by norm_num⟩
    have hrep2 : Rep (-(1 / 2 ^ 10)) := ⟨-1, -10, by norm_num, by norm_num, by norm_num⟩
    have hee : 1 + 1 / 2 ^ 10 ≤ e * e := by norm_num at *; nlinarith
    have hneg : h < 0 := by
      have : h ≤ -(1 / 2 ^ 10) := by
        rcases hh with rfl | rfl
        · have := le_fl hrep hee
          exact fl_le hrep2 (by linarith)
        · exact fl_le hrep2 (by linarith)
      refine lt_of_le_of_lt this (by norm_num)
    rw [if_pos hneg] at hm
    exact hm
  have hg : ∀ n s, After none n s → Goes s ∧ s.sum1 = none := by
    intro n
    cases n with
    | zero =>
      rintro s ⟨-, -, c, -⟩
      have : s.sum1 = none := c
      refine ⟨?_, this⟩
      rintro ⟨x, -, hx⟩
      rw [this] at hx
      exact absurd hx (by simp)
    | succ n =>
      rintro s ⟨s', -, -, -, -, -, -, e⟩
      have : s.sum1 = none := by
        have : Sum3 s'.sum1 s'.term none s.sum1 := e
        revert this
        unfold Sum3
        cases s'.sum1 <;> cases s'.term <;> exact id
      refine ⟨?_, this⟩
      rintro ⟨x, -, hx⟩
      rw [this] at hx
      exact absurd hx (by simp)
  have hm' := hnone m hm
  subst hm'
  refine ⟨fun n => ?_, fun n s hs => (hg n s hs).1, ?_⟩
  · induction n with
    | zero => exact ⟨⟨some 1, none, none, -1, 2⟩, rfl, rfl, rfl, rfl, rfl⟩
    | succ n ih =>
      obtain ⟨s, hs⟩ := ih
      refine ⟨⟨s.sum1, none, none, fl (s.nf + 2), fl (s.df + 2)⟩, s, hs, (hg n s hs).1, rfl, rfl, rfl, ?_, ?_⟩
      · cases s.term <;> rfl
      · show Sum3 s.sum1 s.term none none
        unfold Sum3
        cases s.sum1 <;> cases s.term <;> rfl
  · rintro ⟨n, L, m, s, x, y, h1, -, -, h2, -⟩
    rw [hnone m h1] at h2
    exact absurd h2 (by simp)

end Verif.Props.Length64v
