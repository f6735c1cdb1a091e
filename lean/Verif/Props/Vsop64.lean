import Verif.Model.Vsop64
import Verif.Props.Position64
/-
C196: heliocentric positions by VSOP87 in double precision, against the sums of the theory in exact arithmetic, for any coefficients.
-/
namespace Verif.Props

open Real Verif.Go Verif.Model Verif.Go.F64 Verif.Go.F64.Ex Verif.Model.Vsop

/-! The sums of the theory and the quantities in which the error is expressed. -/

/-- One series. -/
noncomputable def vsSeries (τ : ℝ) (ts : List (Term ℝ)) : ℝ := (ts.map fun t => t.a * Real.cos (t.b + t.c * τ)).sum

/-- One coordinate: powers of τ times the series. -/
noncomputable def vsCoord (c : Coeff ℝ) (τ : ℝ) : ℝ := ∑ x ∈ Finset.range 6, τ ^ x * vsSeries τ (c x)

/-- Sum of the amplitudes. -/
def vsAmp (ts : List (Term ℝ)) : ℝ := (ts.map fun t => |t.a|).sum

/-- Sum of the amplitudes times the rates. -/
def vsRate (ts : List (Term ℝ)) : ℝ := (ts.map fun t => |t.a| * |t.c|).sum

/-- Sum of the amplitudes, each times its position in the list, counted from 0. -/
def vsPlace : List (Term ℝ) → ℝ
  | [] => 0
  | _ :: ts => vsPlace ts + vsAmp ts

/-- The bound for the error of one series. -/
noncomputable def vsErr (ts : List (Term ℝ)) : ℝ := 4e-16 * vsPlace ts + 1e-14 * vsAmp ts + 6e-15 * vsRate ts

/-- What is assumed of the coefficients: at most 2047 terms, phases of about one turn, rates below 2²⁶ per millennium. -/
def vsOk (ts : List (Term ℝ)) : Prop := ts.length ≤ 2047 ∧ ∀ t ∈ ts, |t.b| ≤ 7 ∧ |t.c| ≤ 2 ^ 26

namespace Vsop64v

open Vsop64

theorem fma_two (p y z : ℝ) : |fl (p + fl (y * z)) - (p + y * z)| ≤ (|p| + 3 * |y * z|) / 2 ^ 53 + 3 / 2 ^ 128 := by
  have h1 := fl_err (y * z)
  have h2 := fl_err (p + fl (y * z))
  generalize fl (y * z) = m at *
  generalize y * z = w at *
  have h3 : |p + m| ≤ |p| + |w| + |m - w| := by
    rw [show p + m = p + w + (m - w) by ring]
    exact (abs_add_le _ _).trans (by have := abs_add_le p w; linarith)
  have h4 := abs_sub_le (fl (p + m)) (p + m) (p + w)
  rw [show p + m - (p + w) = m - w by ring] at h4
  have := abs_nonneg w
  norm_num at h1 h2 ⊢
  linarith

theorem fma_one (p y z : ℝ) : |fl (p + y * z) - (p + y * z)| ≤ (|p| + 3 * |y * z|) / 2 ^ 53 + 3 / 2 ^ 128 := by
  have h2 := fl_err (p + y * z)
  have h3 := abs_add_le p (y * z)
  have := abs_nonneg (y * z)
  generalize |y * z| = w at *
  norm_num at h2 ⊢
  linarith

/-- A sum with a product, fused or not. -/
theorem fma_inv {l : Trig} {ρ : ℕ → ℝ} {i : ℕ} {b d : Ex} {x : ℝ} (h : Run l ρ (v i + b * d) x) :
    ∃ y z, Run l ρ b y ∧ Run l ρ d z ∧ |x - (ρ i + y * z)| ≤ (|ρ i| + 3 * |y * z|) / 2 ^ 53 + 3 / 2 ^ 128 := by
  cases h with
  | add h1 h2 =>
    cases h1
    cases h2 with
    | mul h3 h4 => exact ⟨_, _, h3, h4, fma_two _ _ _⟩
  | addMul h1 h3 h4 => cases h1; exact ⟨_, _, h3, h4, fma_one _ _ _⟩

theorem fma_inv' {l : Trig} {ρ : ℕ → ℝ} {i j k : ℕ} {x : ℝ} (h : Run l ρ (v i * v j + v k) x) :
    |x - (ρ k + ρ i * ρ j)| ≤ (|ρ k| + 3 * |ρ i * ρ j|) / 2 ^ 53 + 3 / 2 ^ 128 := by
  cases h with
  | add h1 h2 =>
    cases h2
    cases h1 with
    | mul h3 h4 => cases h3; cases h4; rw [add_comm (fl _)]; exact fma_two _ _ _
  | mulAdd h1 h3 h4 => cases h1; cases h3; cases h4; rw [add_comm (_ * _) (ρ k)]; exact fma_one _ _ _

/-- One term: its value and the error of the new sum. -/
theorem term_near {l : Trig} (hl : l.Ok) {y a b c τ τ' x : ℝ} (hτ : |τ| ≤ 4) (hτ' : |τ' - τ| ≤ 3e-15) (hb : |b| ≤ 7) (hc : |c| ≤ 2 ^ 26)
    (h : Run l (at5 y a b c τ') term x) :
    |x - (y + a * Real.cos (b + c * τ))| ≤ |y| / 2 ^ 53 + 3e-15 * |a| + 5e-15 * (|a| * |c|) + 1 / 2 ^ 120 * (1 + |a|) := by
  obtain ⟨y1, z1, r1, r2, e1⟩ := fma_inv h
  cases r1
  cases r2 with
  | cos r3 =>
  rename_i w
  obtain ⟨y2, z2, r4, r5, e2⟩ := fma_inv r3
  cases r4
  cases r5
  simp only [at5] at e1 e2
  have t4 : |τ'| ≤ 401 / 100 := by
    have := abs_sub_abs_le_abs_sub τ' τ
    norm_num at hτ'
    linarith
  have c0 := abs_nonneg c
  have a0 := abs_nonneg a
  have p1 : |c * τ'| ≤ 401 / 100 * |c| := by
    rw [abs_mul]; nlinarith
  have p2 : |c * τ' - c * τ| ≤ 3 / 1000000000000000 * |c| := by
    rw [← mul_sub, abs_mul]
    norm_num at hτ'
    nlinarith
  have w1 : |w - (b + c * τ)| ≤ 3 / 1000000000000000 * |c| + (7 + 3 * (401 / 100 * |c|)) / 2 ^ 53 + 3 / 2 ^ 128 := by
    have := abs_sub_le w (b + c * τ') (b + c * τ)
    rw [show b + c * τ' - (b + c * τ) = c * τ' - c * τ by ring] at this
    have : (|b| + 3 * |c * τ'|) / 2 ^ 53 ≤ (7 + 3 * (401 / 100 * |c|)) / 2 ^ 53 := by gcongr
    linarith
  have w2 : |w| ≤ 2 ^ 29 := by
    have h1 := abs_sub_le w (b + c * τ') 0
    rw [sub_zero, sub_zero] at h1
    have h2 := abs_add_le b (c * τ')
    generalize |c * τ'| = w1 at *
    generalize |b + c * τ'| = w2 at *
    generalize |w - (b + c * τ')| = w3 at *
    norm_num at hc e2 h1 h2 ⊢
    linarith
  have w3 := hl.cos w w2
  have w4 := Real.abs_cos_sub_cos_le w (b + c * τ)
  have w5 : |l.cos w - Real.cos (b + c * τ)| ≤ 1 / 1000000000000000 + |w - (b + c * τ)| := by
    have := abs_sub_le (l.cos w) (Real.cos w) (Real.cos (b + c * τ))
    norm_num at w3 ⊢
    linarith
  have w6 : |l.cos w| ≤ 11 / 10 := by
    have h1 := abs_sub_abs_le_abs_sub (l.cos w) (Real.cos w)
    have := Real.abs_cos_le_one w
    norm_num at w3
    linarith
  have q1 : |a * l.cos w| ≤ 11 / 10 * |a| := by rw [abs_mul]; nlinarith
  have q2 : |a * l.cos w - a * Real.cos (b + c * τ)| ≤ |a| * (1 / 1000000000000000 + (3 / 1000000000000000 * |c| + (7 + 3 * (401 / 100 * |c|)) / 2 ^ 53 + 3 / 2 ^ 128)) := by
    rw [← mul_sub, abs_mul]
    gcongr
    linarith
  have q3 := abs_sub_le x (y + a * l.cos w) (y + a * Real.cos (b + c * τ))
  rw [show y + a * l.cos w - (y + a * Real.cos (b + c * τ)) = a * l.cos w - a * Real.cos (b + c * τ) by ring] at q3
  have q4 : |a| * (1 / 1000000000000000 + (3 / 1000000000000000 * |c| + (7 + 3 * (401 / 100 * |c|)) / 2 ^ 53 + 3 / 2 ^ 128)) =
      (1 / 1000000000000000 + 7 / 2 ^ 53 + 3 / 2 ^ 128) * |a| + (3 / 1000000000000000 + 3 * (401 / 100) / 2 ^ 53) * (|a| * |c|) := by ring
  rw [q4] at q2
  have ac : 0 ≤ |a| * |c| := mul_nonneg a0 c0
  generalize |a| * |c| = ac' at *
  generalize |x - (y + a * Real.cos (b + c * τ))| = X at *
  generalize |x - (y + a * l.cos w)| = X' at *
  generalize |a * l.cos w - a * Real.cos (b + c * τ)| = X2 at *
  generalize |a * l.cos w| = X3 at *
  norm_num at e1 q1 q2 q3 ⊢
  linarith

theorem amp_nonneg (ts : List (Term ℝ)) : 0 ≤ vsAmp ts := List.sum_nonneg (by simp)
theorem rate_nonneg (ts : List (Term ℝ)) : 0 ≤ vsRate ts := List.sum_nonneg (by
  intro x hx
  obtain ⟨t, _, rfl⟩ := List.mem_map.mp hx
  positivity)
theorem place_nonneg (ts : List (Term ℝ)) : 0 ≤ vsPlace ts := by
  induction ts with
  | nil => exact le_rfl
  | cons t ts ih => exact add_nonneg ih (amp_nonneg ts)

theorem place_le (ts : List (Term ℝ)) : vsPlace ts ≤ ts.length * vsAmp ts := by
  induction ts with
  | nil => simp [vsPlace, vsAmp]
  | cons t ts ih =>
    have h1 : vsAmp (t :: ts) = |t.a| + vsAmp ts := by simp [vsAmp]
    have h2 := abs_nonneg t.a
    have h3 := amp_nonneg ts
    have h4 : (0 : ℝ) ≤ ts.length := Nat.cast_nonneg _
    simp only [vsPlace, List.length_cons, h1]
    push_cast
    nlinarith

theorem rate_le (ts : List (Term ℝ)) (h : ∀ t ∈ ts, |t.c| ≤ 2 ^ 26) : vsRate ts ≤ 2 ^ 26 * vsAmp ts := by
  induction ts with
  | nil => simp [vsRate, vsAmp]
  | cons t ts ih =>
    have h1 : vsAmp (t :: ts) = |t.a| + vsAmp ts := by simp [vsAmp]
    have h2 : vsRate (t :: ts) = |t.a| * |t.c| + vsRate ts := by simp [vsRate]
    have h3 := ih fun u hu => h u (List.mem_cons_of_mem _ hu)
    have h4 := h t List.mem_cons_self
    have := mul_le_mul_of_nonneg_left h4 (abs_nonneg t.a)
    rw [h1, h2]
    linarith

theorem series_abs (τ : ℝ) (ts : List (Term ℝ)) : |vsSeries τ ts| ≤ vsAmp ts := by
  induction ts with
  | nil => simp [vsSeries, vsAmp]
  | cons t ts ih =>
    have h1 : vsAmp (t :: ts) = |t.a| + vsAmp ts := by simp [vsAmp]
    have h2 : vsSeries τ (t :: ts) = t.a * Real.cos (t.b + t.c * τ) + vsSeries τ ts := by simp [vsSeries]
    rw [h1, h2]
    refine (abs_add_le _ _).trans (add_le_add ?_ ih)
    rw [abs_mul]
    exact mul_le_of_le_one_right (abs_nonneg _) (Real.abs_cos_le_one _)

/-- One series. -/
theorem series_near {l : Trig} (hl : l.Ok) {τ τ' : ℝ} (hτ : |τ| ≤ 4) (hτ' : |τ' - τ| ≤ 3e-15) {ts : List (Term ℝ)} (hts : vsOk ts) {x : ℝ}
    (h : Series l τ' ts x) :
    |x - vsSeries τ ts| ≤ 3e-16 * vsPlace ts + 31e-16 * vsAmp ts + 5e-15 * vsRate ts + ts.length / 2 ^ 119 := by
  induction ts generalizing x with
  | nil => cases h; simp [vsSeries, vsPlace, vsAmp, vsRate]
  | cons t ts ih =>
    obtain ⟨y, hy, hr⟩ := h
    obtain ⟨hn, ht⟩ := hts
    have hn' : ts.length + 1 ≤ 2047 := by simpa using hn
    have ok : vsOk ts := ⟨by omega, fun u hu => ht u (List.mem_cons_of_mem _ hu)⟩
    have e := ih ok hy
    obtain ⟨tb, tc⟩ := ht t List.mem_cons_self
    have s := term_near hl hτ hτ' tb tc hr
    have p1 := place_le ts
    have p2 := rate_le ts fun u hu => (ok.2 u hu).2
    have p3 := series_abs τ ts
    have n1 : (ts.length : ℝ) ≤ 2046 := by exact_mod_cast (by omega : ts.length ≤ 2046)
    have A0 := amp_nonneg ts
    have p4 : vsPlace ts ≤ 2046 * vsAmp ts := p1.trans (by gcongr)
    have h1 : vsAmp (t :: ts) = |t.a| + vsAmp ts := by simp [vsAmp]
    have h2 : vsRate (t :: ts) = |t.a| * |t.c| + vsRate ts := by simp [vsRate]
    have h3 : vsSeries τ (t :: ts) = t.a * Real.cos (t.b + t.c * τ) + vsSeries τ ts := by simp [vsSeries]
    have h4 : vsPlace (t :: ts) = vsPlace ts + vsAmp ts := rfl
    have y1 : |y| ≤ |y - vsSeries τ ts| + |vsSeries τ ts| := by
      have := abs_sub_abs_le_abs_sub y (vsSeries τ ts); linarith
    have g := abs_sub_le x (y + t.a * Real.cos (t.b + t.c * τ)) (t.a * Real.cos (t.b + t.c * τ) + vsSeries τ ts)
    rw [show y + t.a * Real.cos (t.b + t.c * τ) - (t.a * Real.cos (t.b + t.c * τ) + vsSeries τ ts) = y - vsSeries τ ts by ring] at g
    rw [h1, h2, h3, h4, List.length_cons, Nat.cast_add, Nat.cast_one]
    have a0 := abs_nonneg t.a
    generalize |x - (t.a * Real.cos (t.b + t.c * τ) + vsSeries τ ts)| = X at *
    generalize |x - (y + t.a * Real.cos (t.b + t.c * τ))| = X1 at *
    generalize |y - vsSeries τ ts| = X2 at *
    generalize |vsSeries τ ts| = X3 at *
    generalize |t.a| * |t.c| = X4 at *
    generalize (ts.length : ℝ) = n at *
    norm_num at e s p4 p2 p3 y1 g ⊢
    linarith

/-- One round of Horner's rule. -/
theorem hstep_near {l : Trig} {τ τ' z Z k K y e M E S : ℝ} (hτ : |τ| ≤ 4) (hτ4 : |τ'| ≤ 4) (hτ' : |τ' - τ| ≤ 3e-15) (hz : |z - Z| ≤ e) (hZ : |Z| ≤ M)
    (hk : |k - K| ≤ E) (hK : |K| ≤ S) (h : Run l (at5 z τ' k 0 0) hstep y) :
    |y - (K + Z * τ)| ≤ (4 * e + E) * (1 + 4e-16) + 13e-16 * (S + 4 * M) + 1 / 2 ^ 120 ∧ |K + Z * τ| ≤ S + 4 * M := by
  have h1 := fma_inv' h
  simp only [at5] at h1
  have e0 : 0 ≤ e := (abs_nonneg _).trans hz
  have M0 : 0 ≤ M := (abs_nonneg _).trans hZ
  have E0 : 0 ≤ E := (abs_nonneg _).trans hk
  have S0 : 0 ≤ S := (abs_nonneg _).trans hK
  have k1 : |k| ≤ S + E := by
    have := abs_sub_abs_le_abs_sub k K; linarith
  have z1 : |z| ≤ M + e := by
    have := abs_sub_abs_le_abs_sub z Z; linarith
  have p1 : |z * τ'| ≤ 4 * (M + e) := by
    rw [abs_mul, mul_comm]
    exact mul_le_mul hτ4 z1 (abs_nonneg _) (by norm_num)
  have p2 : |(z - Z) * τ'| ≤ 4 * e := by
    rw [abs_mul, mul_comm]
    exact mul_le_mul hτ4 hz (abs_nonneg _) (by norm_num)
  have p3 : |Z * (τ' - τ)| ≤ 3 / 1000000000000000 * M := by
    rw [abs_mul, mul_comm]
    exact mul_le_mul (hτ'.trans (by norm_num)) hZ (abs_nonneg _) (by norm_num)
  have p4 : |k + z * τ' - (K + Z * τ)| ≤ E + 4 * e + 3 / 1000000000000000 * M := by
    rw [show k + z * τ' - (K + Z * τ) = (k - K) + (z - Z) * τ' + Z * (τ' - τ) by ring]
    have t1 := abs_add_le ((k - K) + (z - Z) * τ') (Z * (τ' - τ))
    have t2 := abs_add_le (k - K) ((z - Z) * τ')
    linarith
  constructor
  · have t := abs_sub_le y (k + z * τ') (K + Z * τ)
    generalize |z * τ'| = X1 at *
    generalize |y - (k + z * τ')| = X2 at *
    generalize |k + z * τ' - (K + Z * τ)| = X3 at *
    norm_num at h1 ⊢
    linarith
  · refine (abs_add_le _ _).trans (add_le_add hK ?_)
    rw [abs_mul, mul_comm]
    exact mul_le_mul hτ hZ (abs_nonneg _) (by norm_num)

theorem coord_eq (c : Coeff ℝ) (τ : ℝ) : vsCoord c τ = vsSeries τ (c 0) + (vsSeries τ (c 1) + (vsSeries τ (c 2) + (vsSeries τ (c 3) + (vsSeries τ (c 4) +
    vsSeries τ (c 5) * τ) * τ) * τ) * τ) * τ := by
  simp only [vsCoord, Finset.sum_range_succ, Finset.sum_range_zero]
  ring

/-- One coordinate. -/
theorem sum_near {l : Trig} (hl : l.Ok) {τ τ' : ℝ} (hτ : |τ| ≤ 4) (hτ4 : |τ'| ≤ 4) (hτ' : |τ' - τ| ≤ 3e-15) {c : Coeff ℝ} (hc : ∀ x < 6, vsOk (c x)) {y : ℝ}
    (h : Vsop64.Sum l τ' c y) :
    |y - vsCoord c τ| ≤ ∑ x ∈ Finset.range 6, 4 ^ x * vsErr (c x) + 1e-20 ∧ |vsCoord c τ| ≤ ∑ x ∈ Finset.range 6, 4 ^ x * vsAmp (c x) := by
  obtain ⟨cf, hs, hh⟩ := h
  have n : ∀ x < 6, |cf x - vsSeries τ (c x)| ≤ 3e-16 * vsPlace (c x) + 31e-16 * vsAmp (c x) + 5e-15 * vsRate (c x) + 1 / 2 ^ 108 := by
    intro x hx
    refine (series_near hl hτ hτ' (hc x hx) (hs x hx)).trans ?_
    have : ((c x).length : ℝ) ≤ 2047 := by exact_mod_cast (hc x hx).1
    have : ((c x).length : ℝ) / 2 ^ 119 ≤ 1 / 2 ^ 108 := by
      rw [div_le_div_iff₀ (by positivity) (by positivity)]; norm_num; linarith
    linarith
  simp only [List.range, List.range.loop, List.map_cons, List.map_nil, Hor] at hh
  obtain ⟨z1, ⟨z2, ⟨z3, ⟨z4, ⟨z5, rfl, r4⟩, r3⟩, r2⟩, r1⟩, r0⟩ := hh
  have a := fun x => series_abs τ (c x)
  obtain ⟨e4, m4⟩ := hstep_near hτ hτ4 hτ' (n 5 (by norm_num)) (a 5) (n 4 (by norm_num)) (a 4) r4
  obtain ⟨e3, m3⟩ := hstep_near hτ hτ4 hτ' e4 m4 (n 3 (by norm_num)) (a 3) r3
  obtain ⟨e2, m2⟩ := hstep_near hτ hτ4 hτ' e3 m3 (n 2 (by norm_num)) (a 2) r2
  obtain ⟨e1, m1⟩ := hstep_near hτ hτ4 hτ' e2 m2 (n 1 (by norm_num)) (a 1) r1
  obtain ⟨e0, m0⟩ := hstep_near hτ hτ4 hτ' e1 m1 (n 0 (by norm_num)) (a 0) r0
  rw [coord_eq]
  simp only [Finset.sum_range_succ, Finset.sum_range_zero]
  have A := fun x => amp_nonneg (c x)
  have P := fun x => place_nonneg (c x)
  have W := fun x => rate_nonneg (c x)
  constructor
  · refine e0.trans ?_
    have A0 := A 0; have A1 := A 1; have A2 := A 2; have A3 := A 3; have A4 := A 4; have A5 := A 5
    have P0 := P 0; have P1 := P 1; have P2 := P 2; have P3 := P 3; have P4 := P 4; have P5 := P 5
    have W0 := W 0; have W1 := W 1; have W2 := W 2; have W3 := W 3; have W4 := W 4; have W5 := W 5
    unfold vsErr
    norm_num
    linarith
  · refine m0.trans (le_of_eq ?_)
    ring

theorem tau_near {l : Trig} (hl : l.Ok) {jde t : ℝ} (h : |jde - 2451545| ≤ 1460000) (hr : Run l (fun _ => fl (jde - 2451545)) tau t) :
    |t - (jde - 2451545) / 365250| ≤ 3e-15 ∧ |(jde - 2451545) / 365250| ≤ 1460000 / 365250 ∧ |t| ≤ 4 := by
  have b := date_bound hl (h.trans (by norm_num)) hr (m := 2 ^ 100) (ε := 3 * 2 ^ 128 / 10 ^ 15) (δ := 3e-15) (by norm_num) (by decide +kernel)
  have e : tau.val (fun _ => jde - 2451545) = (jde - 2451545) / 365250 := by
    simp only [tau, val_mul, val_div, val_q, val_v]; push_cast; ring
  rw [e] at b
  have g : |(jde - 2451545) / 365250| ≤ 1460000 / 365250 := by
    rw [abs_div, abs_of_pos (by norm_num : (0 : ℝ) < 365250)]
    gcongr
  refine ⟨b, g, ?_⟩
  have := abs_sub_abs_le_abs_sub t ((jde - 2451545) / 365250)
  norm_num at b g ⊢
  linarith

end Vsop64v

/-- C196: latitude and radius. -/
theorem C196_latitude_radius {l : Trig} (hl : l.Ok) {red : ℝ → ℝ} {w : V87Planet ℝ} (hb : ∀ x < 6, vsOk (w.b x)) (hr : ∀ x < 6, vsOk (w.r x)) {jde L B R : ℝ}
    (h : |jde - 2451545| ≤ 1460000) (hp : Vsop64.Position2000 l red w jde L B R) :
    |B - vsCoord w.b ((jde - 2451545) / 365250)| ≤ ∑ x ∈ Finset.range 6, 4 ^ x * vsErr (w.b x) + 1e-20 ∧
    |R - vsCoord w.r ((jde - 2451545) / 365250)| ≤ ∑ x ∈ Finset.range 6, 4 ^ x * vsErr (w.r x) + 1e-20 := by
  obtain ⟨τ, s, r1, _, _, r3, r4⟩ := hp
  obtain ⟨t1, t2, t3⟩ := Vsop64v.tau_near hl h r1
  have t2' := t2.trans (by norm_num : (1460000 / 365250 : ℝ) ≤ 4)
  exact ⟨(Vsop64v.sum_near hl t2' t3 t1 hb r3).1, (Vsop64v.sum_near hl t2' t3 t1 hr r4).1⟩

/-- C196: longitude, up to whole turns. -/
theorem C196_longitude {l : Trig} (hl : l.Ok) {red : ℝ → ℝ} (hm : ∀ x, ∃ k : ℤ, |red x - x - k * (2 * π)| ≤ 1e-16 * |x| + 1e-15) {w : V87Planet ℝ}
    (hw : ∀ x < 6, vsOk (w.l x)) {jde L B R : ℝ} (h : |jde - 2451545| ≤ 1460000) (hp : Vsop64.Position2000 l red w jde L B R) :
    ∃ k : ℤ, |L - vsCoord w.l ((jde - 2451545) / 365250) - k * (2 * π)| ≤
      1.01 * ∑ x ∈ Finset.range 6, 4 ^ x * vsErr (w.l x) + 1e-16 * ∑ x ∈ Finset.range 6, 4 ^ x * vsAmp (w.l x) + 1.1e-15 := by
  obtain ⟨τ, s, r1, r2, rfl, _, _⟩ := hp
  obtain ⟨t1, t2, t3⟩ := Vsop64v.tau_near hl h r1
  have t2' := t2.trans (by norm_num : (1460000 / 365250 : ℝ) ≤ 4)
  obtain ⟨a1, a2⟩ := Vsop64v.sum_near hl t2' t3 t1 hw r2
  obtain ⟨k, hk⟩ := hm s
  refine ⟨k, ?_⟩
  generalize ∑ x ∈ Finset.range 6, 4 ^ x * vsErr (w.l x) = A at *
  generalize ∑ x ∈ Finset.range 6, 4 ^ x * vsAmp (w.l x) = B' at *
  generalize vsCoord w.l ((jde - 2451545) / 365250) = V at *
  have b1 := abs_sub_abs_le_abs_sub s V
  have b2 := abs_add_le (red s - s - k * (2 * π)) (s - V)
  rw [show red s - s - k * (2 * π) + (s - V) = red s - V - k * (2 * π) by ring] at b2
  have := abs_nonneg (s - V)
  norm_num at a1 a2 hk ⊢
  linarith

namespace Vsop64v

open Vsop64

/-- The first terms of the Earth. -/
noncomputable def earth : V87Planet ℝ where
  l := fun x => if x = 0 then [⟨1.75347045673, 0, 0⟩, ⟨0.03341656453, 4.66925680415, 6283.0758499914⟩] else if x = 1 then [⟨6283.31966747491, 0, 0⟩] else []
  b := fun x => if x = 0 then [⟨0.0000027962, 3.19870156017, 84334.66158130829⟩] else []
  r := fun x => if x = 0 then [⟨1.00013988784, 0, 0⟩, ⟨0.01670699632, 3.0984635, 6283.0758499914⟩] else []

theorem series_exists (l : Trig) (τ : ℝ) (ts : List (Term ℝ)) : ∃ x, Series l τ ts x := by
  induction ts with
  | nil => exact ⟨0, rfl⟩
  | cons t ts ih => obtain ⟨y, hy⟩ := ih; obtain ⟨x, hx⟩ := run_exists l (at5 y t.a t.b t.c τ) term; exact ⟨x, y, hy, hx⟩

theorem hor_exists (l : Trig) (τ : ℝ) (cs : List ℝ) : ∃ y, Hor l τ cs y := by
  induction cs with
  | nil => exact ⟨0, rfl⟩
  | cons k ks ih =>
    obtain ⟨z, hz⟩ := ih
    rcases ks with _ | ⟨k', ks⟩
    · exact ⟨k, rfl⟩
    · obtain ⟨y, hy⟩ := run_exists l (at5 z τ k 0 0) hstep
      exact ⟨y, z, hz, hy⟩

theorem sum_exists (l : Trig) (τ : ℝ) (c : Coeff ℝ) : ∃ y, Vsop64.Sum l τ c y := by
  choose cf hcf using fun x => series_exists l τ (c x)
  obtain ⟨y, hy⟩ := hor_exists l τ ((List.range 6).map cf)
  exact ⟨y, cf, fun x _ => hcf x, hy⟩

theorem position_exists (l : Trig) (red : ℝ → ℝ) (w : V87Planet ℝ) (jde : ℝ) : ∃ L B R, Position2000 l red w jde L B R := by
  obtain ⟨τ, hτ⟩ := run_exists l (fun _ => fl (jde - 2451545)) tau
  obtain ⟨s, hs⟩ := sum_exists l τ w.l
  obtain ⟨b, hb⟩ := sum_exists l τ w.b
  obtain ⟨r, hr⟩ := sum_exists l τ w.r
  exact ⟨red s, b, r, τ, s, hτ, hs, rfl, hb, hr⟩

end Vsop64v

/-- C196, for the first terms of the Earth: the program has a result, the latitude is exact within 2·10⁻¹⁵ and the radius within 10⁻¹² au. -/
theorem C196_example {l : Trig} (hl : l.Ok) (red : ℝ → ℝ) {jde : ℝ} (h : |jde - 2451545| ≤ 1460000) :
    ∃ L B R, Vsop64.Position2000 l red Vsop64v.earth jde L B R ∧
      |B - 0.0000027962 * Real.cos (3.19870156017 + 84334.66158130829 * ((jde - 2451545) / 365250))| ≤ 2e-15 ∧
      |R - (1.00013988784 + 0.01670699632 * Real.cos (3.0984635 + 6283.0758499914 * ((jde - 2451545) / 365250)))| ≤ 1e-12 := by
  obtain ⟨L, B, R, hp⟩ := Vsop64v.position_exists l red Vsop64v.earth jde
  refine ⟨L, B, R, hp, ?_⟩
  have ok1 : ∀ x < 6, vsOk (Vsop64v.earth.b x) := by
    intro x _
    unfold Vsop64v.earth
    by_cases hx : x = 0
    · simp only [hx, if_true, vsOk]
      constructor
      · simp
      · intro t ht
        rw [List.mem_singleton] at ht
        subst ht
        norm_num [abs_of_pos]
    · simp [hx, vsOk]
  have ok2 : ∀ x < 6, vsOk (Vsop64v.earth.r x) := by
    intro x _
    unfold Vsop64v.earth
    by_cases hx : x = 0
    · simp only [hx, if_true, vsOk]
      constructor
      · simp
      · intro t ht
        simp only [List.mem_cons, List.not_mem_nil, or_false] at ht
        rcases ht with rfl | rfl <;> norm_num [abs_of_pos]
    · simp [hx, vsOk]
  obtain ⟨h1, h2⟩ := C196_latitude_radius hl ok1 ok2 h hp
  constructor
  · refine le_trans (le_of_eq ?_) (h1.trans ?_)
    · simp [vsCoord, Vsop64v.earth, vsSeries, Finset.sum_range_succ]
    · simp [Vsop64v.earth, vsErr, vsPlace, vsAmp, vsRate, Finset.sum_range_succ]
      norm_num [abs_of_pos]
  · refine le_trans (le_of_eq ?_) (h2.trans ?_)
    · simp [vsCoord, Vsop64v.earth, vsSeries, Finset.sum_range_succ]
    · simp [Vsop64v.earth, vsErr, vsPlace, vsAmp, vsRate, Finset.sum_range_succ]
      norm_num [abs_of_pos]

end Verif.Props
