import Mathlib.Tactic
import Mathlib.Analysis.SpecialFunctions.Trigonometric.Basic
import Mathlib.Analysis.Complex.Exponential
/-
Sums of periodic terms in four angles, with integer coefficients and powers of a fifth variable near 1, as Laurent polynomials.  Products are computed on
lists, so that bounds of the coefficients are found by the kernel.
-/
namespace Verif.Lemmas.Laurent

open Complex

/-- The term c E^e exp i(d D + m M + p P + f F). -/
structure Tm where
  d : ℤ
  m : ℤ
  p : ℤ
  f : ℤ
  e : ℕ
  c : ℤ
  deriving DecidableEq

/-- Values of the angles and of E. -/
structure Pt where
  D : ℝ
  M : ℝ
  P : ℝ
  F : ℝ
  E : ℝ

noncomputable def Tm.ang (t : Tm) (x : Pt) : ℝ := t.d * x.D + t.m * x.M + t.p * x.P + t.f * x.F

noncomputable def Tm.ev (t : Tm) (x : Pt) : ℂ := t.c * (x.E : ℂ) ^ t.e * exp (t.ang x * I)

noncomputable def ev (x : Pt) : List Tm → ℂ
  | [] => 0
  | t :: l => t.ev x + ev x l

theorem ev_append (x : Pt) (p q : List Tm) : ev x (p ++ q) = ev x p + ev x q := by
  induction p with
  | nil => simp [ev]
  | cons t p ih => simp only [List.cons_append, ev, ih]; ring

/-- Order for merging; it has no part in the meaning. -/
def lt (a b : Tm) : Bool :=
  if a.p < b.p then true else if b.p < a.p then false else
  if a.f < b.f then true else if b.f < a.f then false else
  if a.m < b.m then true else if b.m < a.m then false else
  if a.d < b.d then true else if b.d < a.d then false else
  Nat.blt a.e b.e

/-- The same exponents. -/
def same (a b : Tm) : Bool := decide (a.p = b.p) && decide (a.f = b.f) && decide (a.m = b.m) && decide (a.d = b.d) && Nat.beq a.e b.e

/-- Step of `merge`. -/
def mergeGo (a : Tm) (p : List Tm) (rest : List Tm → List Tm) : List Tm → List Tm
  | [] => a :: p
  | b :: q =>
    if same a b then
      (match a.c + b.c with
       | Int.ofNat 0 => rest q
       | c => { a with c := c } :: rest q)
    else if lt a b then a :: rest (b :: q)
    else b :: mergeGo a p rest q

/-- Sum of two sorted lists. -/
def merge : List Tm → List Tm → List Tm
  | [] => id
  | a :: p => mergeGo a p (merge p)

theorem same_ev (x : Pt) {a b : Tm} (h : same a b = true) : ({ a with c := a.c + b.c } : Tm).ev x = a.ev x + b.ev x := by
  simp only [same, Bool.and_eq_true, decide_eq_true_eq] at h
  obtain ⟨⟨⟨⟨h1, h2⟩, h3⟩, h4⟩, h5⟩ := h
  replace h5 := Nat.eq_of_beq_eq_true h5
  unfold Tm.ev Tm.ang
  simp only [h1, h2, h3, h4, h5]
  push_cast
  ring

theorem ev_mergeGo (x : Pt) (a : Tm) (p : List Tm) (rest : List Tm → List Tm) (h : ∀ q, ev x (rest q) = ev x p + ev x q) (q : List Tm) :
    ev x (mergeGo a p rest q) = ev x (a :: p) + ev x q := by
  induction q with
  | nil => simp [mergeGo, ev]
  | cons b q ih =>
    unfold mergeGo
    split_ifs with h1 h2
    · have h3 := same_ev x h1
      have key : ∀ c, c = a.c + b.c → ev x (({ a with c := c } : Tm) :: rest q) = ev x (a :: p) + ev x (b :: q) := by
        intro c hc
        simp only [ev, h, hc, h3]; ring
      split
      · next h4 =>
        have := key 0 h4.symm
        simp only [ev] at this
        rw [show ({ a with c := 0 } : Tm).ev x = 0 by simp [Tm.ev], zero_add] at this
        simpa [ev] using this
      · exact key _ rfl
    · simp only [ev, h]; ring
    · simp only [ev, ih]; ring

theorem ev_merge (x : Pt) (p q : List Tm) : ev x (merge p q) = ev x p + ev x q := by
  induction p generalizing q with
  | nil => simp [merge, ev]
  | cons a p ih => exact ev_mergeGo x a p (merge p) ih q

/-- Sum of a list of lists in halves. -/
def gather : ℕ → List (List Tm) → List Tm
  | 0, l => l.foldr merge []
  | _ + 1, [] => []
  | _ + 1, [a] => a
  | n + 1, l => merge (gather n (l.take (l.length / 2))) (gather n (l.drop (l.length / 2)))

noncomputable def evs (x : Pt) (l : List (List Tm)) : ℂ := (l.map (ev x)).sum

theorem ev_gather (x : Pt) (n : ℕ) (l : List (List Tm)) : ev x (gather n l) = evs x l := by
  induction n generalizing l with
  | zero =>
    unfold gather evs
    induction l with
    | nil => simp [ev]
    | cons a l ih => simp only [List.foldr, ev_merge, ih, List.map_cons, List.sum_cons]
  | succ n ih =>
    unfold gather
    split
    · contradiction
    · simp [evs, ev]
    · simp [evs]
    · next h _ _ =>
      cases h
      rw [ev_merge, ih, ih]
      unfold evs
      rw [← List.sum_append, ← List.map_append, List.take_append_drop]

/-- Sorting. -/
def sort (l : List Tm) : List Tm := gather 12 (l.map fun t => [t])

theorem ev_sort (x : Pt) (l : List Tm) : ev x (sort l) = ev x l := by
  unfold sort
  rw [ev_gather]
  unfold evs
  induction l with
  | nil => simp [ev]
  | cons a l ih => simp only [List.map_cons, List.sum_cons, ih, ev]; ring

def Tm.mul (a b : Tm) : Tm := ⟨a.d + b.d, a.m + b.m, a.p + b.p, a.f + b.f, a.e + b.e, a.c * b.c⟩

theorem Tm.ev_mul (x : Pt) (a b : Tm) : (a.mul b).ev x = a.ev x * b.ev x := by
  unfold Tm.ev Tm.mul Tm.ang
  simp only
  push_cast
  rw [show exp (((a.d + b.d) * x.D + (a.m + b.m) * x.M + (a.p + b.p) * x.P + (a.f + b.f) * x.F : ℂ) * I) =
      exp ((a.d * x.D + a.m * x.M + a.p * x.P + a.f * x.F : ℂ) * I) * exp ((b.d * x.D + b.m * x.M + b.p * x.P + b.f * x.F : ℂ) * I) by
    rw [← Complex.exp_add]; congr 1; ring, pow_add]
  ring

/-- Product. -/
def mul (p q : List Tm) : List Tm := gather 12 (p.map fun a => q.map a.mul)

theorem ev_mul (x : Pt) (p q : List Tm) : ev x (mul p q) = ev x p * ev x q := by
  unfold mul
  rw [ev_gather]
  unfold evs
  induction p with
  | nil => simp [ev]
  | cons a p ih =>
    simp only [List.map_cons, List.sum_cons, ih, ev, add_mul]
    congr 1
    clear ih
    induction q with
    | nil => simp [ev]
    | cons b q ih => simp only [List.map_cons, ev, ih, Tm.ev_mul]; ring

/-- Multiple. -/
def smul (k : ℤ) (p : List Tm) : List Tm := p.map fun a => { a with c := k * a.c }

theorem ev_smul (x : Pt) (k : ℤ) (p : List Tm) : ev x (smul k p) = k * ev x p := by
  unfold smul
  induction p with
  | nil => simp [ev]
  | cons a p ih =>
    simp only [List.map_cons, ev, ih, mul_add]
    congr 1
    unfold Tm.ev Tm.ang
    push_cast; ring

/-- Replacing terms by equal ones. -/
theorem ev_map (x : Pt) (g : Tm → Tm) (hg : ∀ t, (g t).ev x = t.ev x) (p : List Tm) : ev x (p.map g) = ev x p := by
  induction p with
  | nil => rfl
  | cons a p ih => simp only [List.map_cons, ev, ih, hg]

/-! Bounds -/

/-- Sum of the absolute values of the coefficients. -/
def l1 : List Tm → ℕ
  | [] => 0
  | t :: l => t.c.natAbs + l1 l

/-- Weighted by the powers of E, with room for 1.03^e. -/
def le : List Tm → ℕ
  | [] => 0
  | t :: l => (t.c.natAbs * t.e * 103 ^ t.e / 100 ^ t.e + 1) + le l

theorem norm_ang (t : Tm) (x : Pt) : ‖exp (t.ang x * I)‖ = 1 := Complex.norm_exp_ofReal_mul_I _

theorem pow_near {E δ : ℝ} (h : |E - 1| ≤ δ) (n : ℕ) : |E ^ n - 1| ≤ n * δ * (1 + δ) ^ n := by
  have hδ : 0 ≤ δ := (abs_nonneg _).trans h
  have hE : |E| ≤ 1 + δ := by
    have := abs_sub_abs_le_abs_sub E 1
    rw [abs_one] at this
    linarith
  induction n with
  | zero => simp
  | succ n ih =>
    rw [show E ^ (n + 1) - 1 = (E ^ n - 1) * E + (E - 1) by ring]
    refine (abs_add_le _ _).trans ?_
    rw [abs_mul]
    have h1 : |E ^ n - 1| * |E| ≤ n * δ * (1 + δ) ^ n * (1 + δ) := mul_le_mul ih hE (abs_nonneg _) (by positivity)
    have h2 : (1 : ℝ) ≤ (1 + δ) ^ (n + 1) := one_le_pow₀ (by linarith)
    have h3 : δ ≤ δ * (1 + δ) ^ (n + 1) := le_mul_of_one_le_right hδ h2
    push_cast
    rw [pow_succ] at *
    linarith

/-- The sum with E set to 1. -/
def one (p : List Tm) : List Tm := sort (p.map fun t => { t with e := 0 })

theorem norm_le_l1 (x : Pt) (p : List Tm) (h : x.E = 1) : ‖ev x p‖ ≤ l1 p := by
  induction p with
  | nil => simp [ev, l1]
  | cons t p ih =>
    simp only [ev, l1]
    refine (norm_add_le _ _).trans ?_
    push_cast
    refine add_le_add ?_ ih
    unfold Tm.ev
    rw [norm_mul, norm_ang, h, ofReal_one, one_pow, mul_one, mul_one, Complex.norm_intCast, Nat.cast_natAbs, Int.cast_abs]

theorem ev_one (x : Pt) (p : List Tm) : ev x (p.map fun t => { t with e := 0 }) = ev { x with E := 1 } (one p) := by
  unfold one
  rw [ev_sort]
  induction p with
  | nil => rfl
  | cons t p ih =>
    simp only [List.map_cons, ev, ih]
    congr 1

/-- The bound: coefficients with E set to 1, and the rest. -/
theorem ev_bound (x : Pt) (p : List Tm) (δ : ℝ) (hE : |x.E - 1| ≤ δ) (hδ' : δ ≤ 0.03) : ‖ev x p‖ ≤ l1 (one p) + le p * δ := by
  have hδ : 0 ≤ δ := (abs_nonneg _).trans hE
  have key : ‖ev x p - ev x (p.map fun t => { t with e := 0 })‖ ≤ le p * δ := by
    induction p with
    | nil => simp [ev, le]
    | cons t p ih =>
      simp only [ev, le, List.map_cons]
      rw [Nat.cast_add, show t.ev x + ev x p - (({ t with e := 0 } : Tm).ev x + ev x (p.map fun t => { t with e := 0 })) =
        (t.ev x - ({ t with e := 0 } : Tm).ev x) + (ev x p - ev x (p.map fun t => { t with e := 0 })) by ring, add_mul]
      refine (norm_add_le _ _).trans (add_le_add ?_ ih)
      have e1 : t.ev x - ({ t with e := 0 } : Tm).ev x = t.c * ((x.E ^ t.e - 1 : ℝ) : ℂ) * exp (t.ang x * I) := by
        unfold Tm.ev Tm.ang
        push_cast
        ring
      rw [e1, norm_mul, norm_ang, mul_one, norm_mul, Complex.norm_real, Real.norm_eq_abs, Complex.norm_intCast]
      have h1 : |x.E ^ t.e - 1| ≤ t.e * δ * (103 / 100) ^ t.e :=
        (pow_near hE t.e).trans (mul_le_mul_of_nonneg_left (pow_le_pow_left₀ (by linarith) (by norm_num at hδ'; linarith) _) (by positivity))
      have h2 : ((t.c.natAbs * t.e * 103 ^ t.e : ℕ) : ℝ) / (100 ^ t.e : ℕ) ≤ ((t.c.natAbs * t.e * 103 ^ t.e / 100 ^ t.e + 1 : ℕ) : ℝ) := by
        have hp : (0 : ℝ) < ((100 ^ t.e : ℕ) : ℝ) := by positivity
        rw [div_le_iff₀ hp]
        exact_mod_cast (Nat.lt_mul_of_div_lt (Nat.lt_succ_self _) (by positivity)).le
      refine (mul_le_mul_of_nonneg_left h1 (abs_nonneg _)).trans ?_
      refine le_trans (le_of_eq ?_) (mul_le_mul_of_nonneg_right h2 hδ)
      push_cast
      rw [Nat.cast_natAbs, Int.cast_abs, div_pow]
      ring
  have k2 := norm_le_l1 { x with E := 1 } (one p) rfl
  rw [← ev_one] at k2
  calc ‖ev x p‖ = ‖ev x (p.map fun t => { t with e := 0 }) + (ev x p - ev x (p.map fun t => { t with e := 0 }))‖ := by congr 1; ring
    _ ≤ _ := (norm_add_le _ _).trans (add_le_add k2 key)

/-! Sines and cosines -/

def Tm.neg (t : Tm) : Tm := ⟨-t.d, -t.m, -t.p, -t.f, t.e, t.c⟩

/-- 2i Σ c E^e sin. -/
def odd (p : List Tm) : List Tm := p ++ p.map fun t => { t.neg with c := -t.c }
/-- 2 Σ c E^e cos. -/
def even (p : List Tm) : List Tm := p ++ p.map Tm.neg

/-- Σ c E^e sin. -/
noncomputable def sinS (x : Pt) (p : List Tm) : ℝ := (p.map fun t => t.c * x.E ^ t.e * Real.sin (t.ang x)).sum
/-- Σ c E^e cos. -/
noncomputable def cosS (x : Pt) (p : List Tm) : ℝ := (p.map fun t => t.c * x.E ^ t.e * Real.cos (t.ang x)).sum

theorem neg_ang (t : Tm) (x : Pt) : t.neg.ang x = -t.ang x := by
  unfold Tm.neg Tm.ang; push_cast; ring

theorem ev_odd (x : Pt) (p : List Tm) : ev x (odd p) = 2 * I * sinS x p := by
  unfold odd sinS
  rw [ev_append]
  induction p with
  | nil => simp [ev]
  | cons t p ih =>
    simp only [List.map_cons, ev, List.sum_cons, ofReal_add, mul_add]
    rw [← ih]
    have h : t.ev x + ({ t.neg with c := -t.c } : Tm).ev x = 2 * I * ((t.c * x.E ^ t.e * Real.sin (t.ang x) : ℝ) : ℂ) := by
      have h1 : ({ t.neg with c := -t.c } : Tm).ang x = -t.ang x := neg_ang t x
      unfold Tm.ev
      rw [h1]
      simp only [Tm.neg]
      push_cast
      rw [Complex.exp_mul_I, Complex.exp_mul_I, Complex.cos_neg, Complex.sin_neg]
      ring
    rw [← h]; ring

theorem ev_even (x : Pt) (p : List Tm) : ev x (even p) = 2 * cosS x p := by
  unfold even cosS
  rw [ev_append]
  induction p with
  | nil => simp [ev]
  | cons t p ih =>
    simp only [List.map_cons, ev, List.sum_cons, ofReal_add, mul_add]
    rw [← ih]
    have h : t.ev x + t.neg.ev x = 2 * ((t.c * x.E ^ t.e * Real.cos (t.ang x) : ℝ) : ℂ) := by
      unfold Tm.ev
      rw [neg_ang]
      simp only [Tm.neg]
      push_cast
      rw [Complex.exp_mul_I, Complex.exp_mul_I, Complex.cos_neg, Complex.sin_neg]
      ring
    rw [← h]; ring

/-! Multiples of D when D is a quarter of a turn -/

/-- D a multiple of a turn. -/
def col0 (t : Tm) : Tm := { t with d := 0 }
/-- D an odd multiple of half a turn. -/
def col2 (t : Tm) : Tm := { t with d := 0, c := if t.d % 2 = 0 then t.c else -t.c }
/-- D an odd multiple of a quarter. -/
def col1 (t : Tm) : Tm := { t with d := t.d % 2, c := if (t.d / 2) % 2 = 0 then t.c else -t.c }

theorem col0_ev (x : Pt) (h : x.D = 0) (t : Tm) : (col0 t).ev x = t.ev x := by
  unfold Tm.ev Tm.ang col0
  simp [h]

theorem exp_ang (t : Tm) (x : Pt) : exp (t.ang x * I) = exp (x.D * I) ^ t.d * exp (((t.m * x.M + t.p * x.P + t.f * x.F : ℝ) : ℂ) * I) := by
  rw [← Complex.exp_int_mul, ← Complex.exp_add]
  unfold Tm.ang
  congr 1
  push_cast; ring

theorem zpow_neg_one (n : ℤ) : (-1 : ℂ) ^ n = if n % 2 = 0 then 1 else -1 := by
  split_ifs with h
  · exact Even.neg_one_zpow (Int.even_iff.2 h)
  · exact Odd.neg_one_zpow (Int.odd_iff.2 (by omega))

theorem col2_ev (x : Pt) (h : exp (x.D * I) = -1) (t : Tm) : (col2 t).ev x = t.ev x := by
  unfold Tm.ev
  rw [exp_ang, exp_ang, h, zpow_neg_one, zpow_neg_one]
  unfold col2
  simp only
  split_ifs <;> simp_all

theorem col1_ev (x : Pt) (h : exp (x.D * I) ^ 2 = -1) (t : Tm) : (col1 t).ev x = t.ev x := by
  have h0 : exp (x.D * I) ≠ 0 := Complex.exp_ne_zero _
  unfold Tm.ev
  rw [exp_ang, exp_ang]
  have e : exp (x.D * I) ^ t.d = (-1) ^ (t.d / 2) * exp (x.D * I) ^ (t.d % 2) := by
    rw [← h, ← zpow_natCast, ← zpow_mul, ← zpow_add₀ h0]
    congr 1
    push_cast
    exact (Int.mul_ediv_add_emod t.d 2).symm
  rw [e, zpow_neg_one]
  unfold col1
  simp only
  split_ifs
  · simp
  · push_cast; ring

end Verif.Lemmas.Laurent
