import Verif.Go.Float64
import Mathlib.Analysis.SpecialFunctions.Trigonometric.Bounds
import Mathlib.Analysis.Real.Pi.Bounds
/-
Straight-line code in float64: expressions, the results which the language allows for them, and a bound for the difference from exact arithmetic that is
computed from the expression.
-/
namespace Verif.Go.F64

open Real

/-- Expressions over float64.  `c n d pi` is the untyped constant n/d, or n π/d, which is computed exactly and rounded when it becomes a float64; `v i` is a variable. -/
inductive Ex where
  | c (n : ℤ) (d : ℕ) (pi : Bool)
  | v (i : ℕ)
  | add (a b : Ex)
  | sub (a b : Ex)
  | mul (a b : Ex)
  | div (a b : Ex)
  | sin (a : Ex)
  | cos (a : Ex)
  | abs (a : Ex)

namespace Ex

/-- The value of a constant. -/
noncomputable def cval (n : ℤ) (d : ℕ) (pi : Bool) : ℝ := if pi then (n : ℝ) / d * π else (n : ℝ) / d

/-- The value in exact arithmetic. -/
noncomputable def val (ρ : ℕ → ℝ) : Ex → ℝ
  | c n d pi => cval n d pi
  | v i => ρ i
  | add a b => a.val ρ + b.val ρ
  | sub a b => a.val ρ - b.val ρ
  | mul a b => a.val ρ * b.val ρ
  | div a b => a.val ρ / b.val ρ
  | sin a => Real.sin (a.val ρ)
  | cos a => Real.cos (a.val ρ)
  | abs a => |a.val ρ|

/-! Notation for the models. -/

instance : Add Ex := ⟨add⟩
instance : Sub Ex := ⟨sub⟩
instance : Mul Ex := ⟨mul⟩
instance : Div Ex := ⟨div⟩

/-- A constant n/d. -/
def q (n : ℤ) (d : ℕ) : Ex := c n d false
/-- A constant n π/d. -/
def p (n : ℤ) (d : ℕ) : Ex := c n d true

/-- `base.Horner`.  v3/base/math.go:20-29. -/
def horner (x : Ex) : List Ex → Ex
  | [] => q 0 1
  | [a] => a
  | a :: l => horner x l * x + a

/-- A sum written out, or added up in a loop, from left to right. -/
def sumFrom (a : Ex) : List Ex → Ex
  | [] => a
  | t :: l => sumFrom (a + t) l

theorem val_add (ρ : ℕ → ℝ) (a b : Ex) : (a + b).val ρ = a.val ρ + b.val ρ := rfl
theorem val_sub (ρ : ℕ → ℝ) (a b : Ex) : (a - b).val ρ = a.val ρ - b.val ρ := rfl
theorem val_mul (ρ : ℕ → ℝ) (a b : Ex) : (a * b).val ρ = a.val ρ * b.val ρ := rfl
theorem val_div (ρ : ℕ → ℝ) (a b : Ex) : (a / b).val ρ = a.val ρ / b.val ρ := rfl
theorem val_q (ρ : ℕ → ℝ) (n : ℤ) (d : ℕ) : (q n d).val ρ = (n : ℝ) / d := rfl
theorem val_p (ρ : ℕ → ℝ) (n : ℤ) (d : ℕ) : (p n d).val ρ = (n : ℝ) / d * π := rfl
theorem val_v (ρ : ℕ → ℝ) (i : ℕ) : (v i).val ρ = ρ i := rfl
theorem val_sin (ρ : ℕ → ℝ) (a : Ex) : (sin a).val ρ = Real.sin (a.val ρ) := rfl
theorem val_cos (ρ : ℕ → ℝ) (a : Ex) : (cos a).val ρ = Real.cos (a.val ρ) := rfl
theorem val_abs (ρ : ℕ → ℝ) (a : Ex) : (abs a).val ρ = |a.val ρ| := rfl

theorem val_sumFrom (ρ : ℕ → ℝ) (a : Ex) (l : List Ex) : (sumFrom a l).val ρ = a.val ρ + (l.map (val ρ)).sum := by
  induction l generalizing a with
  | nil => simp [sumFrom]
  | cons t l ih => rw [sumFrom, ih, val_add, List.map_cons, List.sum_cons, add_assoc]

end Ex

/-- math.Sin and math.Cos (and math.Sincos). -/
structure Trig where
  sin : ℝ → ℝ
  cos : ℝ → ℝ

/-- What is assumed of them: an absolute error of at most 10⁻¹⁵ for arguments up to 2²⁹, the range in which the library reduces the argument with three
parts of π/4. -/
structure Trig.Ok (l : Trig) : Prop where
  sin : ∀ x, |x| ≤ 2 ^ 29 → |l.sin x - Real.sin x| ≤ 1e-15
  cos : ∀ x, |x| ≤ 2 ^ 29 → |l.cos x - Real.cos x| ≤ 1e-15

/-- `Run l ρ e x`: the program may compute x for e.  Every operation rounds to nearest; a product and a sum or difference may be fused, as the language allows. -/
inductive Run (l : Trig) (ρ : ℕ → ℝ) : Ex → ℝ → Prop
  | c (n : ℤ) (d : ℕ) (pi : Bool) : Run l ρ (.c n d pi) (fl (Ex.cval n d pi))
  | v (i : ℕ) : Run l ρ (.v i) (ρ i)
  | add {a b : Ex} {x y : ℝ} : Run l ρ a x → Run l ρ b y → Run l ρ (.add a b) (fl (x + y))
  | sub {a b : Ex} {x y : ℝ} : Run l ρ a x → Run l ρ b y → Run l ρ (.sub a b) (fl (x - y))
  | mul {a b : Ex} {x y : ℝ} : Run l ρ a x → Run l ρ b y → Run l ρ (.mul a b) (fl (x * y))
  | div {a b : Ex} {x y : ℝ} : Run l ρ a x → Run l ρ b y → Run l ρ (.div a b) (fl (x / y))
  | sin {a : Ex} {x : ℝ} : Run l ρ a x → Run l ρ (.sin a) (l.sin x)
  | cos {a : Ex} {x : ℝ} : Run l ρ a x → Run l ρ (.cos a) (l.cos x)
  | abs {a : Ex} {x : ℝ} : Run l ρ a x → Run l ρ (.abs a) |x|
  | addMul {a b d : Ex} {x y z : ℝ} : Run l ρ a x → Run l ρ b y → Run l ρ d z → Run l ρ (.add a (.mul b d)) (fl (x + y * z))
  | mulAdd {a b d : Ex} {x y z : ℝ} : Run l ρ a x → Run l ρ b y → Run l ρ d z → Run l ρ (.add (.mul b d) a) (fl (y * z + x))
  | subMul {a b d : Ex} {x y z : ℝ} : Run l ρ a x → Run l ρ b y → Run l ρ d z → Run l ρ (.sub a (.mul b d)) (fl (x - y * z))
  | mulSub {a b d : Ex} {x y z : ℝ} : Run l ρ a x → Run l ρ b y → Run l ρ d z → Run l ρ (.sub (.mul b d) a) (fl (y * z - x))

/-! The bound: a size in units of 2⁻⁶⁴ and an error in units of 2⁻¹²⁸. -/

/-- Rounding of a value of size m known within e. -/
def rnd (m e : ℕ) : ℕ := e + (m * 2 ^ 64 + e) / 2 ^ 53 + 2

def bd (env : List (ℕ × ℕ)) : Ex → Option (ℕ × ℕ)
  | .c n d pi =>
    if d = 0 then none
    else if pi then let m := n.natAbs * 57952155664616982740 / d + 1; some (m, rnd m 0)
    else if d = 1 ∧ n.natAbs ≤ 2 ^ 53 then some (n.natAbs * 2 ^ 64, 0)
    else let m := n.natAbs * 2 ^ 64 / d + 1; some (m, rnd m 0)
  | .v i => env[i]?
  | .add a b =>
    match bd env a, bd env b with
    | some (m, e), some (m', e') => some (m + m', rnd (m + m') (e + e'))
    | _, _ => none
  | .sub a b =>
    match bd env a, bd env b with
    | some (m, e), some (m', e') => some (m + m', rnd (m + m') (e + e'))
    | _, _ => none
  | .mul a b =>
    match bd env a, bd env b with
    | some (m, e), some (m', e') =>
      let q := m * m' / 2 ^ 64 + 1
      some (q, rnd q ((m * e' + m' * e) / 2 ^ 64 + e * e' / 2 ^ 128 + 2))
    | _, _ => none
  | .div a b =>
    match b with
    | .c n d pi =>
      if pi = false ∧ d = 1 ∧ 0 < n ∧ n ≤ 2 ^ 53 then
        match bd env a with
        | some (m, e) => some (m / n.natAbs + 1, rnd (m / n.natAbs + 1) (e / n.natAbs + 1))
        | none => none
      else none
    | _ => none
  | .sin a =>
    match bd env a with
    | some (m, e) => if m * 2 ^ 64 + e ≤ 2 ^ 157 then some (2 ^ 64, e + 340282366920938463463375) else none
    | none => none
  | .cos a =>
    match bd env a with
    | some (m, e) => if m * 2 ^ 64 + e ≤ 2 ^ 157 then some (2 ^ 64, e + 340282366920938463463375) else none
    | none => none
  | .abs a => bd env a

/-- What the pair means. -/
def Fits (r x : ℝ) (p : ℕ × ℕ) : Prop := |r| ≤ p.1 / 2 ^ 64 ∧ |x - r| ≤ p.2 / 2 ^ 128

theorem ndiv_ge (a b : ℕ) (hb : 0 < b) : (a : ℝ) / b ≤ (a / b + 1 : ℕ) := by
  have h : a < (a / b + 1) * b := by
    have := Nat.lt_div_mul_add (a := a) hb
    nlinarith
  rw [div_le_iff₀ (by exact_mod_cast hb)]
  exact_mod_cast h.le

theorem fl_err (x : ℝ) : |fl x - x| ≤ |x| / 2 ^ 53 + 1 / 2 ^ 128 := by
  rcases le_or_gt ((2 : ℝ) ^ (-1022 : ℤ)) |x| with h | h
  · have := fl_rel h
    rw [zpow_neg] at this
    have e : (2 : ℝ) ^ (53 : ℤ) = 2 ^ 53 := by norm_cast
    rw [e] at this
    have : (2 ^ 53)⁻¹ * |x| = |x| / 2 ^ 53 := by ring
    have : (0 : ℝ) < 1 / 2 ^ 128 := by positivity
    linarith
  · have := fl_near_lt (n := -1021) (x := x) (h.trans (by apply zpow_lt_zpow_right₀ <;> norm_num)) le_rfl
    have h2 : (2 : ℝ) ^ (-1021 - 54 : ℤ) ≤ 1 / 2 ^ 128 := by
      rw [show (1 : ℝ) / 2 ^ 128 = 2 ^ (-128 : ℤ) by rw [zpow_neg]; norm_num]
      apply zpow_le_zpow_right₀ <;> norm_num
    have h3 : 0 ≤ |x| / 2 ^ 53 := by positivity
    exact (this.trans h2).trans (by linarith)

theorem fits_rnd {r y : ℝ} {m e : ℕ} (h : Fits r y (m, e)) : Fits r (fl y) (m, rnd m e) := by
  obtain ⟨h1, h2⟩ := h
  dsimp only at h1 h2
  refine ⟨h1, ?_⟩
  have h3 := fl_err y
  have h4 : |y| ≤ m / 2 ^ 64 + e / 2 ^ 128 := by
    have := abs_add_le (y - r) r
    rw [sub_add_cancel] at this
    linarith
  have h5 : |fl y - r| ≤ |fl y - y| + |y - r| := by
    have := abs_add_le (fl y - y) (y - r)
    rwa [sub_add_sub_cancel] at this
  have h6 := ndiv_ge (m * 2 ^ 64 + e) (2 ^ 53) (by norm_num)
  show |fl y - r| ≤ ((rnd m e : ℕ) : ℝ) / 2 ^ 128
  have h7 : ((rnd m e : ℕ) : ℝ) = e + (((m * 2 ^ 64 + e) / 2 ^ 53 + 1 : ℕ) : ℝ) + 1 := by
    unfold rnd
    push_cast
    ring
  rw [h7]
  rw [Nat.cast_add, Nat.cast_mul, Nat.cast_pow, Nat.cast_pow, Nat.cast_ofNat] at h6
  generalize (((m * 2 ^ 64 + e) / 2 ^ 53 + 1 : ℕ) : ℝ) = z at *
  have h8 : (m / 2 ^ 64 + e / 2 ^ 128 : ℝ) / 2 ^ 53 ≤ z / 2 ^ 128 := by
    rw [show (m / 2 ^ 64 + e / 2 ^ 128 : ℝ) / 2 ^ 53 = ((m * 2 ^ 64 + e) / 2 ^ 53) / 2 ^ 128 by ring]
    gcongr
  have h9 : |y| / 2 ^ 53 ≤ z / 2 ^ 128 := le_trans (by gcongr) h8
  rw [add_div, add_div]
  linarith

theorem fits_add {r s x y : ℝ} {m e m' e' : ℕ} (h : Fits r x (m, e)) (h' : Fits s y (m', e')) : Fits (r + s) (x + y) (m + m', e + e') := by
  obtain ⟨h1, h2⟩ := h
  obtain ⟨h3, h4⟩ := h'
  dsimp only at *
  constructor
  · push_cast; rw [add_div]; exact (abs_add_le _ _).trans (add_le_add h1 h3)
  · push_cast; rw [add_div, add_sub_add_comm]; exact (abs_add_le _ _).trans (add_le_add h2 h4)

theorem fits_neg {s y : ℝ} {p : ℕ × ℕ} (h : Fits s y p) : Fits (-s) (-y) p := by
  obtain ⟨h1, h2⟩ := h
  refine ⟨by rwa [abs_neg], ?_⟩
  rw [show -y - -s = -(y - s) by ring, abs_neg]; exact h2

theorem fits_sub {r s x y : ℝ} {m e m' e' : ℕ} (h : Fits r x (m, e)) (h' : Fits s y (m', e')) : Fits (r - s) (x - y) (m + m', e + e') := by
  rw [sub_eq_add_neg, sub_eq_add_neg]; exact fits_add h (fits_neg h')

theorem fits_mul {r s x y : ℝ} {m e m' e' : ℕ} (h : Fits r x (m, e)) (h' : Fits s y (m', e')) :
    Fits (r * s) (x * y) (m * m' / 2 ^ 64 + 1, (m * e' + m' * e) / 2 ^ 64 + e * e' / 2 ^ 128 + 2) := by
  obtain ⟨h1, h2⟩ := h
  obtain ⟨h3, h4⟩ := h'
  dsimp only at *
  constructor
  · have k := ndiv_ge (m * m') (2 ^ 64) (by norm_num)
    rw [abs_mul]
    refine (mul_le_mul h1 h3 (abs_nonneg _) (by positivity)).trans ?_
    dsimp only
    rw [Nat.cast_mul, Nat.cast_pow, Nat.cast_ofNat] at k
    rw [show (m / 2 ^ 64 * (m' / 2 ^ 64) : ℝ) = (m * m' / 2 ^ 64) / 2 ^ 64 by ring]
    gcongr
  · have k1 := ndiv_ge (m * e' + m' * e) (2 ^ 64) (by norm_num)
    have k2 := ndiv_ge (e * e') (2 ^ 128) (by norm_num)
    dsimp only
    have a1 : |r * (y - s)| ≤ m / 2 ^ 64 * (e' / 2 ^ 128) := by
      rw [abs_mul]; exact mul_le_mul h1 h4 (abs_nonneg _) (by positivity)
    have a2 : |s * (x - r)| ≤ m' / 2 ^ 64 * (e / 2 ^ 128) := by
      rw [abs_mul]; exact mul_le_mul h3 h2 (abs_nonneg _) (by positivity)
    have a3 : |(x - r) * (y - s)| ≤ e / 2 ^ 128 * (e' / 2 ^ 128) := by
      rw [abs_mul]; exact mul_le_mul h2 h4 (abs_nonneg _) (by positivity)
    rw [show x * y - r * s = r * (y - s) + s * (x - r) + (x - r) * (y - s) by ring]
    refine ((abs_add_le _ _).trans (add_le_add ((abs_add_le _ _).trans (add_le_add a1 a2)) a3)).trans ?_
    rw [show (m / 2 ^ 64 * (e' / 2 ^ 128) + m' / 2 ^ 64 * (e / 2 ^ 128) + e / 2 ^ 128 * (e' / 2 ^ 128) : ℝ) =
      ((m * e' + m' * e) / 2 ^ 64 + e * e' / 2 ^ 128) / 2 ^ 128 by ring]
    rw [Nat.cast_add, Nat.cast_mul, Nat.cast_mul, Nat.cast_pow, Nat.cast_ofNat, Nat.cast_add] at k1
    rw [Nat.cast_mul, Nat.cast_pow, Nat.cast_ofNat, Nat.cast_add] at k2
    refine div_le_div_of_nonneg_right ?_ (by positivity)
    push_cast at k1 k2 ⊢
    linarith

theorem rnd_mono {m e m' e' : ℕ} (h : m ≤ m') (h' : e ≤ e') : rnd m e ≤ rnd m' e' := by
  unfold rnd
  have : (m * 2 ^ 64 + e) / 2 ^ 53 ≤ (m' * 2 ^ 64 + e') / 2 ^ 53 := Nat.div_le_div_right (by omega)
  omega

theorem Fits.mono {r x : ℝ} {m e m' e' : ℕ} (h : Fits r x (m, e)) (h1 : m ≤ m') (h2 : e ≤ e') : Fits r x (m', e') := by
  obtain ⟨a, b⟩ := h
  dsimp only at *
  have h1' : (m : ℝ) ≤ m' := by exact_mod_cast h1
  have h2' : (e : ℝ) ≤ e' := by exact_mod_cast h2
  exact ⟨a.trans (by dsimp only; gcongr), b.trans (by dsimp only; gcongr)⟩

theorem le_rnd (m e : ℕ) : e ≤ rnd m e := by unfold rnd; omega

theorem fits_const (n : ℤ) (d : ℕ) (pi : Bool) (p : ℕ × ℕ) (env : List (ℕ × ℕ)) (h : bd env (.c n d pi) = some p) : Fits (Ex.cval n d pi) (fl (Ex.cval n d pi)) p := by
  unfold bd at h
  split_ifs at h with h0 h1 h2
  · cases h
    have k := ndiv_ge (n.natAbs * 57952155664616982740) d (by omega)
    apply fits_rnd
    refine ⟨?_, by simp⟩
    dsimp only
    unfold Ex.cval
    rw [if_pos h1, abs_mul, abs_div, abs_of_pos pi_pos, Nat.abs_cast]
    have hn : |(n : ℝ)| = n.natAbs := by rw [Nat.cast_natAbs, Int.cast_abs]
    rw [hn, le_div_iff₀ (by positivity)]
    refine le_trans ?_ k
    rw [Nat.cast_mul, Nat.cast_ofNat]
    rw [show (n.natAbs : ℝ) / d * π * 2 ^ 64 = n.natAbs * (π * 2 ^ 64) / d by ring]
    have hp : π * 2 ^ 64 ≤ 57952155664616982740 := by
      have := pi_lt_d20
      norm_num at this ⊢
      linarith
    gcongr
  · cases h
    obtain ⟨rfl, hn⟩ := h2
    have e : Ex.cval n 1 pi = n := by unfold Ex.cval; rw [if_neg h1]; simp
    have hz : |n| ≤ 2 ^ 53 := by
      have := Int.abs_eq_natAbs n; rw [this]; exact_mod_cast hn
    rw [e, fl_rep (rep_int hz)]
    refine ⟨?_, by simp⟩
    have hn' : |(n : ℝ)| = n.natAbs := by rw [Nat.cast_natAbs, Int.cast_abs]
    dsimp only
    rw [Nat.cast_mul, Nat.cast_pow, Nat.cast_ofNat, hn', mul_div_assoc, div_self (by norm_num), mul_one]
  · cases h
    have k := ndiv_ge (n.natAbs * 2 ^ 64) d (by omega)
    apply fits_rnd
    refine ⟨?_, by simp⟩
    dsimp only
    unfold Ex.cval
    rw [if_neg h1, abs_div, Nat.abs_cast]
    have hn : |(n : ℝ)| = n.natAbs := by rw [Nat.cast_natAbs, Int.cast_abs]
    rw [hn, le_div_iff₀ (by positivity)]
    refine le_trans (le_of_eq ?_) k
    push_cast
    ring

theorem trig_size {r x : ℝ} {m e : ℕ} (h : Fits r x (m, e)) (hm : m * 2 ^ 64 + e ≤ 2 ^ 157) : |x| ≤ 2 ^ 29 := by
  obtain ⟨h1, h2⟩ := h
  dsimp only at *
  have h4 : |x| ≤ m / 2 ^ 64 + e / 2 ^ 128 := by
    have := abs_add_le (x - r) r
    rw [sub_add_cancel] at this
    linarith
  refine h4.trans ?_
  have : ((m * 2 ^ 64 + e : ℕ) : ℝ) ≤ (2 ^ 157 : ℕ) := by exact_mod_cast hm
  rw [Nat.cast_add, Nat.cast_mul, Nat.cast_pow, Nat.cast_pow, Nat.cast_ofNat] at this
  rw [show (m / 2 ^ 64 + e / 2 ^ 128 : ℝ) = (m * 2 ^ 64 + e) / 2 ^ 128 by ring, div_le_iff₀ (by positivity)]
  refine this.trans (by norm_num)

theorem fits_trig {r x s y : ℝ} {m e : ℕ} (h : Fits r x (m, e)) (hs : |s| ≤ 1) (hy : |y - s| ≤ 1e-15 + |x - r|) :
    Fits s y (2 ^ 64, e + 340282366920938463463375) := by
  constructor
  · refine hs.trans (by push_cast; norm_num)
  · have := h.2
    dsimp only at *
    refine (hy.trans (add_le_add_right this _)).trans ?_
    push_cast
    rw [add_div, add_comm]
    gcongr
    norm_num

/-- The bound is right: whatever the program computes for the expression is within it. -/
theorem run_bound {l : Trig} (hl : l.Ok) {ρ ρ' : ℕ → ℝ} {env : List (ℕ × ℕ)} (henv : ∀ i p, env[i]? = some p → Fits (ρ i) (ρ' i) p)
    {e : Ex} {x : ℝ} (hr : Run l ρ' e x) : ∀ p, bd env e = some p → Fits (e.val ρ) x p := by
  induction hr with
  | c n d pi => intro p h; exact fits_const n d pi p env h
  | v i => intro p h; exact henv i p h
  | @add a b x y _ _ iha ihb =>
    intro p h
    unfold bd at h
    split at h
    · cases h
      rename_i ha hb
      exact fits_rnd (fits_add (iha _ ha) (ihb _ hb))
    · cases h
  | @sub a b x y _ _ iha ihb =>
    intro p h
    unfold bd at h
    split at h
    · cases h
      rename_i ha hb
      exact fits_rnd (fits_sub (iha _ ha) (ihb _ hb))
    · cases h
  | @mul a b x y _ _ iha ihb =>
    intro p h
    unfold bd at h
    split at h
    · cases h
      rename_i ha hb
      exact fits_rnd (fits_mul (iha _ ha) (ihb _ hb))
    · cases h
  | @div a b x y _ hb iha _ =>
    intro p h
    unfold bd at h
    split at h
    · rename_i n d pi _
      split_ifs at h with h0
      obtain ⟨hpi, hd, hn, hn'⟩ := h0
      subst hpi hd
      split at h
      · cases h
        rename_i m e ha
        cases hb
        have ec : Ex.cval n 1 false = n := by unfold Ex.cval; simp
        have hz : |n| ≤ 2 ^ 53 := by rw [abs_of_pos hn]; exact hn'
        rw [ec, fl_rep (rep_int hz)]
        apply fits_rnd
        obtain ⟨h1, h2⟩ := iha _ ha
        dsimp only at h1 h2
        have hnr : (0 : ℝ) < n := by exact_mod_cast hn
        have hna : 0 < n.natAbs := by omega
        have hnn : (n : ℝ) = n.natAbs := by rw [Nat.cast_natAbs, abs_of_pos hn]
        have ev : Ex.val ρ (Ex.div a (Ex.c n 1 false)) = a.val ρ / n := by simp [Ex.val, ec]
        rw [ev]
        have k1 := ndiv_ge m n.natAbs hna
        have k2 := ndiv_ge e n.natAbs hna
        rw [← hnn] at k1 k2
        constructor
        · dsimp only
          rw [abs_div, abs_of_pos hnr]
          refine (div_le_div_of_nonneg_right h1 hnr.le).trans ?_
          rw [div_right_comm]
          gcongr
        · dsimp only
          rw [← sub_div, abs_div, abs_of_pos hnr]
          refine (div_le_div_of_nonneg_right h2 hnr.le).trans ?_
          rw [div_right_comm]
          gcongr
      · cases h
    · cases h
  | @sin a x _ iha =>
    intro p h
    unfold bd at h
    split at h
    · rename_i m e ha
      split_ifs at h with hm
      cases h
      have f := iha _ ha
      have h1 := hl.sin x (trig_size f hm)
      refine fits_trig f (abs_sin_le_one _) ?_
      have h2 := abs_sin_sub_sin_le x (a.val ρ)
      have := abs_add_le (l.sin x - Real.sin x) (Real.sin x - Real.sin (a.val ρ))
      rw [sub_add_sub_cancel] at this
      show |l.sin x - Real.sin (a.val ρ)| ≤ _
      linarith
    · cases h
  | @cos a x _ iha =>
    intro p h
    unfold bd at h
    split at h
    · rename_i m e ha
      split_ifs at h with hm
      cases h
      have f := iha _ ha
      have h1 := hl.cos x (trig_size f hm)
      refine fits_trig f (abs_cos_le_one _) ?_
      have h2 := abs_cos_sub_cos_le x (a.val ρ)
      have := abs_add_le (l.cos x - Real.cos x) (Real.cos x - Real.cos (a.val ρ))
      rw [sub_add_sub_cancel] at this
      show |l.cos x - Real.cos (a.val ρ)| ≤ _
      linarith
    · cases h
  | @abs a x _ iha =>
    intro p h
    unfold bd at h
    obtain ⟨h1, h2⟩ := iha _ h
    exact ⟨by show |(|a.val ρ|)| ≤ _; rwa [abs_abs], (abs_abs_sub_abs_le _ _).trans h2⟩
  | @addMul a b d x y z _ _ _ iha ihb ihd =>
    intro p h
    unfold bd at h
    split at h
    · cases h
      rename_i ha hb
      unfold bd at hb
      split at hb
      · cases hb
        rename_i hb hd
        have := fits_rnd (fits_add (iha _ ha) (fits_mul (ihb _ hb) (ihd _ hd)))
        exact this.mono le_rfl (rnd_mono le_rfl (Nat.add_le_add_left (le_rnd _ _) _))
      · cases hb
    · cases h
  | @mulAdd a b d x y z _ _ _ iha ihb ihd =>
    intro p h
    unfold bd at h
    split at h
    · cases h
      rename_i hb ha
      unfold bd at hb
      split at hb
      · cases hb
        rename_i hb hd
        have := fits_rnd (fits_add (fits_mul (ihb _ hb) (ihd _ hd)) (iha _ ha))
        exact this.mono le_rfl (rnd_mono le_rfl (Nat.add_le_add_right (le_rnd _ _) _))
      · cases hb
    · cases h
  | @subMul a b d x y z _ _ _ iha ihb ihd =>
    intro p h
    unfold bd at h
    split at h
    · cases h
      rename_i ha hb
      unfold bd at hb
      split at hb
      · cases hb
        rename_i hb hd
        have := fits_rnd (fits_sub (iha _ ha) (fits_mul (ihb _ hb) (ihd _ hd)))
        exact this.mono le_rfl (rnd_mono le_rfl (Nat.add_le_add_left (le_rnd _ _) _))
      · cases hb
    · cases h
  | @mulSub a b d x y z _ _ _ iha ihb ihd =>
    intro p h
    unfold bd at h
    split at h
    · cases h
      rename_i hb ha
      unfold bd at hb
      split at hb
      · cases hb
        rename_i hb hd
        have := fits_rnd (fits_sub (fits_mul (ihb _ hb) (ihd _ hd)) (iha _ ha))
        exact this.mono le_rfl (rnd_mono le_rfl (Nat.add_le_add_right (le_rnd _ _) _))
      · cases hb
    · cases h

/-- The test which the kernel evaluates. -/
def within (env : List (ℕ × ℕ)) (e : Ex) (m ε : ℕ) : Bool :=
  match bd env e with
  | some (m', ε') => Nat.ble m' m && Nat.ble ε' ε
  | none => false

theorem within_bound {l : Trig} (hl : l.Ok) {ρ ρ' : ℕ → ℝ} {env : List (ℕ × ℕ)} (henv : ∀ i p, env[i]? = some p → Fits (ρ i) (ρ' i) p)
    {e : Ex} {x : ℝ} (hr : Run l ρ' e x) {m ε : ℕ} (h : within env e m ε = true) : |e.val ρ| ≤ m / 2 ^ 64 ∧ |x - e.val ρ| ≤ ε / 2 ^ 128 := by
  unfold within at h
  split at h
  · rename_i m' ε' hb
    rw [Bool.and_eq_true] at h
    exact (run_bound hl henv hr _ hb).mono (Nat.le_of_ble_eq_true h.1) (Nat.le_of_ble_eq_true h.2)
  · cases h

/-- One variable of size at most m, known exactly. -/
theorem env_one {x : ℝ} {m : ℕ} (h : |x| ≤ m) : ∀ i p, [(m * 2 ^ 64, 0)][i]? = some p → Fits ((fun _ => x : ℕ → ℝ) i) ((fun _ => x : ℕ → ℝ) i) p := by
  intro i p hp
  rcases i with _ | i
  · simp only [List.getElem?_cons_zero, Option.some.injEq] at hp
    subst hp
    refine ⟨?_, by simp⟩
    dsimp only
    rw [Nat.cast_mul, Nat.cast_pow, Nat.cast_ofNat, mul_div_assoc, div_self (by norm_num), mul_one]
    exact h
  · simp at hp

/-- Correctly rounded functions meet the assumption. -/
theorem trig_ok : Trig.Ok ⟨fun x => fl (Real.sin x), fun x => fl (Real.cos x)⟩ := by
  have key : ∀ y : ℝ, |y| ≤ 1 → |fl y - y| ≤ 1e-15 := by
    intro y hy
    refine (fl_err y).trans ?_
    have : |y| / 2 ^ 53 ≤ 1 / 2 ^ 53 := by gcongr
    have h2 : (1 : ℝ) / 2 ^ 53 + 1 / 2 ^ 128 ≤ 1e-15 := by norm_num
    linarith
  exact ⟨fun x _ => key _ (abs_sin_le_one x), fun x _ => key _ (abs_cos_le_one x)⟩

/-- Every expression has a result. -/
theorem run_exists (l : Trig) (ρ : ℕ → ℝ) (e : Ex) : ∃ x, Run l ρ e x := by
  induction e with
  | c n d pi => exact ⟨_, .c n d pi⟩
  | v i => exact ⟨_, .v i⟩
  | add a b iha ihb => obtain ⟨x, hx⟩ := iha; obtain ⟨y, hy⟩ := ihb; exact ⟨_, .add hx hy⟩
  | sub a b iha ihb => obtain ⟨x, hx⟩ := iha; obtain ⟨y, hy⟩ := ihb; exact ⟨_, .sub hx hy⟩
  | mul a b iha ihb => obtain ⟨x, hx⟩ := iha; obtain ⟨y, hy⟩ := ihb; exact ⟨_, .mul hx hy⟩
  | div a b iha ihb => obtain ⟨x, hx⟩ := iha; obtain ⟨y, hy⟩ := ihb; exact ⟨_, .div hx hy⟩
  | sin a iha => obtain ⟨x, hx⟩ := iha; exact ⟨_, .sin hx⟩
  | cos a iha => obtain ⟨x, hx⟩ := iha; exact ⟨_, .cos hx⟩
  | abs a iha => obtain ⟨x, hx⟩ := iha; exact ⟨_, .abs hx⟩

end Verif.Go.F64
