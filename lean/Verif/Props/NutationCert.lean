import Verif.Props.Nutation
/-
C116: `ApproxNutation` is within a tenth of a second of `Nutation` in obliquity.  The largest value of the difference, as a function of the five
arguments, is bounded by writing the difference plus a constant as a sum of squares of moduli of trigonometric polynomials, but for small terms.
-/
namespace Verif.Props

open Real Verif.Model Verif.Model.Nutation

/-- The term c cos(d D + m M + n N + f F + w Ω). -/
structure Tr where
  d : ℤ
  m : ℤ
  n : ℤ
  f : ℤ
  w : ℤ
  c : ℤ

noncomputable def Tr.ang (t : Tr) (T : ℝ) : ℝ := t.d * argD T + t.m * argM T + t.n * argN T + t.f * argF T + t.w * argΩ T

noncomputable def cosP (T : ℝ) (l : List Tr) : ℝ := (l.map fun t => (t.c : ℝ) * cos (t.ang T)).sum
noncomputable def sinP (T : ℝ) (l : List Tr) : ℝ := (l.map fun t => (t.c : ℝ) * sin (t.ang T)).sum

theorem cosP_append (T : ℝ) (p q : List Tr) : cosP T (p ++ q) = cosP T p + cosP T q := by
  simp [cosP]

theorem cosP_cons (T : ℝ) (t : Tr) (q : List Tr) : cosP T (t :: q) = t.c * cos (t.ang T) + cosP T q := by
  simp [cosP]

/-- Same angle up to sign. -/
def Tr.same (a b : Tr) : Bool :=
  (a.d == b.d && a.n == b.n && a.f == b.f && a.w == b.w && a.m == b.m) ||
  (a.d == -b.d && a.n == -b.n && a.f == -b.f && a.w == -b.w && a.m == -b.m)

theorem Tr.same_cos {a b : Tr} (T : ℝ) (h : a.same b = true) : cos (a.ang T) = cos (b.ang T) := by
  simp only [Tr.same, Bool.or_eq_true, Bool.and_eq_true, beq_iff_eq] at h
  obtain ⟨⟨⟨⟨h1, h2⟩, h3⟩, h4⟩, h5⟩ | ⟨⟨⟨⟨h1, h2⟩, h3⟩, h4⟩, h5⟩ := h
  · simp only [Tr.ang, h1, h2, h3, h4, h5]
  · rw [← cos_neg (b.ang T)]
    congr 1
    simp only [Tr.ang, h1, h2, h3, h4, h5]
    push_cast; ring

/-- Adding a term to a list. -/
def ins (t : Tr) : List Tr → List Tr
  | [] => [t]
  | b :: l => if b.same t then { b with c := b.c + t.c } :: l else b :: ins t l

theorem cosP_ins (T : ℝ) (t : Tr) (l : List Tr) : cosP T (ins t l) = t.c * cos (t.ang T) + cosP T l := by
  induction l with
  | nil => rw [ins, cosP_cons]
  | cons b l ih =>
    unfold ins
    split_ifs with h
    · rw [cosP_cons, cosP_cons, ← Tr.same_cos T h]
      have : ({ b with c := b.c + t.c } : Tr).ang T = b.ang T := rfl
      rw [this]
      push_cast; ring
    · rw [cosP_cons, ih, cosP_cons]; ring

def collect (l : List Tr) : List Tr := l.foldr ins []

theorem cosP_collect (T : ℝ) (l : List Tr) : cosP T (collect l) = cosP T l := by
  unfold collect
  induction l with
  | nil => rfl
  | cons t l ih => rw [List.foldr_cons, cosP_ins, ih, cosP_cons]

def size (l : List Tr) : ℕ := (l.map fun t => t.c.natAbs).sum

theorem cosP_abs (T : ℝ) (l : List Tr) : |cosP T l| ≤ size l := by
  induction l with
  | nil => simp [cosP, size]
  | cons t l ih =>
    have : size (t :: l) = t.c.natAbs + size l := by simp [size]
    rw [cosP_cons, this]
    refine (abs_add_le _ _).trans ?_
    push_cast
    refine add_le_add ?_ ih
    rw [abs_mul, Nat.cast_natAbs, Int.cast_abs]
    have h1 := abs_cos_le_one (t.ang T)
    have h2 := abs_nonneg (t.c : ℝ)
    nlinarith

/-- Minus the square of the modulus of a trigonometric polynomial. -/
def negSq : List Tr → List Tr
  | [] => []
  | a :: l => ⟨0, 0, 0, 0, 0, -(a.c * a.c)⟩ :: (l.map fun b => ⟨a.d - b.d, a.m - b.m, a.n - b.n, a.f - b.f, a.w - b.w, -(2 * a.c * b.c)⟩) ++ negSq l

theorem negSq_row (T : ℝ) (a : Tr) (l : List Tr) :
    cosP T (l.map fun b => (⟨a.d - b.d, a.m - b.m, a.n - b.n, a.f - b.f, a.w - b.w, -(2 * a.c * b.c)⟩ : Tr)) =
      -(2 * (a.c * cos (a.ang T)) * cosP T l + 2 * (a.c * sin (a.ang T)) * sinP T l) := by
  induction l with
  | nil => simp [cosP, sinP]
  | cons b l ih =>
    have hs : sinP T (b :: l) = b.c * sin (b.ang T) + sinP T l := by simp [sinP]
    rw [List.map_cons, cosP_cons, ih, cosP_cons, hs]
    have : Tr.ang ⟨a.d - b.d, a.m - b.m, a.n - b.n, a.f - b.f, a.w - b.w, -(2 * a.c * b.c)⟩ T = a.ang T - b.ang T := by
      simp only [Tr.ang]; push_cast; ring
    rw [this, cos_sub]
    push_cast; ring

theorem cosP_negSq (T : ℝ) (l : List Tr) : cosP T (negSq l) = -(cosP T l ^ 2 + sinP T l ^ 2) := by
  induction l with
  | nil => simp [negSq, cosP, sinP]
  | cons a l ih =>
    have hs : sinP T (a :: l) = a.c * sin (a.ang T) + sinP T l := by simp [sinP]
    rw [negSq, cosP_append, cosP_cons, negSq_row, ih, cosP_cons, hs]
    have h0 : Tr.ang ⟨0, 0, 0, 0, 0, -(a.c * a.c)⟩ T = 0 := by simp [Tr.ang]
    rw [h0, cos_zero]
    have := sin_sq_add_cos_sq (a.ang T)
    push_cast
    linear_combination ((a.c : ℝ) ^ 2) * this

def negSqs (c : List (List Tr)) : List Tr := c.flatMap negSq

theorem cosP_negSqs (T : ℝ) (c : List (List Tr)) : cosP T (negSqs c) ≤ 0 := by
  induction c with
  | nil => simp [negSqs, cosP]
  | cons a c ih =>
    have : negSqs (a :: c) = negSq a ++ negSqs c := by simp [negSqs]
    rw [this, cosP_append, cosP_negSq]
    nlinarith [sq_nonneg (cosP T a), sq_nonneg (sinP T a)]

def scaleP (k : ℤ) (l : List Tr) : List Tr := l.map fun t => { t with c := k * t.c }

theorem cosP_scale (T : ℝ) (k : ℤ) (l : List Tr) : cosP T (scaleP k l) = k * cosP T l := by
  unfold scaleP
  induction l with
  | nil => simp [cosP]
  | cons t l ih =>
    have : ({ t with c := k * t.c } : Tr).ang T = t.ang T := rfl
    rw [List.map_cons, cosP_cons, cosP_cons, ih, this]
    push_cast; ring

/-- What remains of `k l` after the squares bounds `l` below. -/
theorem sos_bound (T : ℝ) (k : ℤ) (l : List Tr) (c : List (List Tr)) (N : ℕ) (h : size (collect (scaleP k l ++ negSqs c)) ≤ N) : -(N : ℝ) ≤ k * cosP T l := by
  have h1 := cosP_abs T (collect (scaleP k l ++ negSqs c))
  rw [cosP_collect, cosP_append, cosP_scale] at h1
  have h2 := cosP_negSqs T c
  have h3 : (size (collect (scaleP k l ++ negSqs c)) : ℝ) ≤ N := by exact_mod_cast h
  have := (abs_le.1 h1).1
  linarith

/-! Certificates -/

/-- Squares for the lower bound of the difference. -/
def certP : List (List Tr) := [
  [⟨0, 0, 0, 0, 0, 1669⟩, ⟨-2, 1, 0, 2, 2, 493⟩, ⟨-2, -1, 0, 2, 2, -252⟩, ⟨-2, 0, 0, 2, 2, 117⟩, ⟨-2, 0, 0, 2, 1, -164⟩, ⟨0, 1, 0, 0, 0, 64⟩, ⟨0, -1, 0, 0, 0, 120⟩, ⟨0, 0, 0, 2, 1, 253⟩, ⟨0, 0, 0, 2, 2, 81⟩, ⟨0, 0, 1, 2, 2, 93⟩, ⟨0, 0, -1, 2, 2, -109⟩, ⟨0, 0, 1, 0, 0, -36⟩, ⟨0, 0, -1, 0, 0, 98⟩, ⟨0, 0, 0, 0, 1, 41⟩, ⟨0, 0, 0, 0, -1, 52⟩, ⟨0, 0, 1, 0, 1, -43⟩, ⟨0, 0, -1, 0, 1, 130⟩, ⟨0, 0, 1, 2, 1, 52⟩, ⟨2, 0, -1, 2, 2, 78⟩, ⟨0, 0, -2, 2, 1, -62⟩],
  [⟨-2, 1, 0, 2, 2, 446⟩, ⟨-2, -1, 0, 2, 2, -62⟩, ⟨-2, 0, 0, 2, 2, -73⟩, ⟨-2, 0, 0, 2, 1, -1⟩, ⟨0, 1, 0, 0, 0, 27⟩, ⟨0, -1, 0, 0, 0, -54⟩, ⟨0, 0, 0, 2, 1, -273⟩, ⟨0, 0, 0, 2, 2, -90⟩, ⟨0, 0, 1, 2, 2, -102⟩, ⟨0, 0, -1, 2, 2, -181⟩, ⟨0, 0, 1, 0, 0, 40⟩, ⟨0, 0, -1, 0, 0, -109⟩, ⟨0, 0, 0, 0, 1, 13⟩, ⟨0, 0, 0, 0, -1, -57⟩, ⟨0, 0, 1, 0, 1, 41⟩, ⟨0, 0, -1, 0, 1, -142⟩, ⟨0, 0, 1, 2, 1, -58⟩, ⟨2, 0, -1, 2, 2, -85⟩, ⟨0, 0, -2, 2, 1, 66⟩],
  [⟨-2, -1, 0, 2, 2, 416⟩, ⟨-2, 0, 0, 2, 2, -90⟩, ⟨-2, 0, 0, 2, 1, -48⟩, ⟨0, 1, 0, 0, 0, 43⟩, ⟨0, -1, 0, 0, 0, -32⟩, ⟨0, 0, 0, 2, 1, 112⟩, ⟨0, 0, 0, 2, 2, 36⟩, ⟨0, 0, 1, 2, 2, 41⟩, ⟨0, 0, -1, 2, 2, -92⟩, ⟨0, 0, 1, 0, 0, -16⟩, ⟨0, 0, -1, 0, 0, 43⟩, ⟨0, 0, 0, 0, 1, 98⟩, ⟨0, 0, 0, 0, -1, 23⟩, ⟨0, 0, 1, 0, 1, -19⟩, ⟨0, 0, -1, 0, 1, 52⟩, ⟨0, 0, 1, 2, 1, 23⟩, ⟨2, 0, -1, 2, 2, 34⟩, ⟨0, 0, -2, 2, 1, -21⟩],
  [⟨-2, 0, 0, 2, 2, 700⟩, ⟨-2, 0, 0, 2, 1, -14⟩, ⟨0, 1, 0, 0, 0, -78⟩, ⟨0, -1, 0, 0, 0, 392⟩, ⟨0, 0, 0, 2, 1, -35⟩, ⟨0, 0, 0, 2, 2, 23⟩, ⟨0, 0, -1, 2, 2, -112⟩, ⟨0, 0, 1, 0, 0, 6⟩, ⟨0, 0, -1, 0, 0, -106⟩, ⟨0, 0, 0, 0, 1, -99⟩, ⟨0, 0, 0, 0, -1, -14⟩, ⟨0, 0, 1, 0, 1, 9⟩, ⟨0, 0, -1, 0, 1, -93⟩, ⟨0, 0, 1, 2, 1, -11⟩, ⟨2, 0, -1, 2, 2, -18⟩, ⟨0, 0, -2, 2, 1, 14⟩],
  [⟨-2, 0, 0, 2, 1, 431⟩, ⟨0, 1, 0, 0, 0, -7⟩, ⟨0, -1, 0, 0, 0, -6⟩, ⟨0, 0, 0, 2, 1, 22⟩, ⟨0, 0, 0, 2, 2, 70⟩, ⟨0, 0, 1, 2, 2, 8⟩, ⟨0, 0, -1, 2, 2, -266⟩, ⟨0, 0, 1, 0, 0, -15⟩, ⟨0, 0, -1, 0, 0, 106⟩, ⟨0, 0, 0, 0, 1, 24⟩, ⟨0, 0, 0, 0, -1, -20⟩, ⟨0, 0, 1, 0, 1, -17⟩, ⟨0, 0, -1, 0, 1, 36⟩, ⟨0, 0, 1, 2, 1, -13⟩, ⟨2, 0, -1, 2, 2, 32⟩, ⟨0, 0, -2, 2, 1, -90⟩],
  [⟨0, 1, 0, 0, 0, 397⟩, ⟨0, -1, 0, 0, 0, 446⟩, ⟨0, 0, 0, 2, 1, -41⟩, ⟨0, 0, 0, 2, 2, 30⟩, ⟨0, 0, 1, 2, 2, -12⟩, ⟨0, 0, -1, 2, 2, 13⟩, ⟨0, 0, 1, 0, 0, -57⟩, ⟨0, 0, -1, 0, 0, -84⟩, ⟨0, 0, 0, 0, 1, 158⟩, ⟨0, 0, 0, 0, -1, 64⟩, ⟨0, 0, 1, 0, 1, 8⟩, ⟨0, 0, -1, 0, 1, -34⟩, ⟨0, 0, 1, 2, 1, -7⟩, ⟨2, 0, -1, 2, 2, -13⟩, ⟨0, 0, -2, 2, 1, 9⟩],
  [⟨0, -1, 0, 0, 0, 292⟩, ⟨0, 0, 0, 2, 1, -33⟩, ⟨0, 0, 0, 2, 2, -171⟩, ⟨0, 0, 1, 2, 2, -34⟩, ⟨0, 0, -1, 2, 2, 126⟩, ⟨0, 0, 1, 0, 0, 172⟩, ⟨0, 0, -1, 0, 0, -292⟩, ⟨0, 0, 0, 0, 1, 218⟩, ⟨0, 0, 0, 0, -1, -332⟩, ⟨0, 0, 1, 0, 1, -1⟩, ⟨0, 0, -1, 0, 1, 104⟩, ⟨0, 0, 1, 2, 1, -5⟩, ⟨2, 0, -1, 2, 2, 1⟩],
  [⟨0, 0, 0, 2, 1, 446⟩, ⟨0, 0, 0, 2, 2, -2⟩, ⟨0, 0, 1, 2, 2, 46⟩, ⟨0, 0, -1, 2, 2, -265⟩, ⟨0, 0, 1, 0, 0, -216⟩, ⟨0, 0, -1, 0, 0, 26⟩, ⟨0, 0, 0, 0, 1, -46⟩, ⟨0, 0, 0, 0, -1, -184⟩, ⟨0, 0, 1, 0, 1, 64⟩, ⟨0, 0, -1, 0, 1, -355⟩, ⟨0, 0, 1, 2, 1, -236⟩, ⟨2, 0, -1, 2, 2, 7⟩, ⟨0, 0, -2, 2, 1, 267⟩],
  [⟨0, 0, 0, 2, 2, 486⟩, ⟨0, 0, 1, 2, 2, 62⟩, ⟨0, 0, -1, 2, 2, -166⟩, ⟨0, 0, 1, 0, 0, -88⟩, ⟨0, 0, -1, 0, 0, 316⟩, ⟨0, 0, 0, 0, 1, 195⟩, ⟨0, 0, 0, 0, -1, -138⟩, ⟨0, 0, 1, 0, 1, -71⟩, ⟨0, 0, -1, 0, 1, -113⟩, ⟨0, 0, 1, 2, 1, -160⟩, ⟨2, 0, -1, 2, 2, 110⟩, ⟨0, 0, -2, 2, 1, 84⟩],
  [⟨0, 0, 1, 2, 2, 157⟩, ⟨0, 0, -1, 2, 2, 448⟩, ⟨0, 0, 1, 0, 0, 5⟩, ⟨0, 0, -1, 0, 0, 67⟩, ⟨0, 0, 0, 0, 1, -13⟩, ⟨0, 0, 0, 0, -1, -31⟩, ⟨0, 0, 1, 0, 1, -7⟩, ⟨0, 0, -1, 0, 1, 197⟩, ⟨0, 0, 1, 2, 1, -55⟩, ⟨2, 0, -1, 2, 2, 110⟩, ⟨0, 0, -2, 2, 1, -22⟩],
  [⟨0, 0, -1, 2, 2, 417⟩, ⟨0, 0, 1, 0, 0, -166⟩, ⟨0, 0, -1, 0, 0, -242⟩, ⟨0, 0, 0, 0, 1, 137⟩, ⟨0, 0, 0, 0, -1, -63⟩, ⟨0, 0, 1, 0, 1, -20⟩, ⟨0, 0, -1, 0, 1, 103⟩, ⟨0, 0, 1, 2, 1, -230⟩, ⟨2, 0, -1, 2, 2, -46⟩, ⟨0, 0, -2, 2, 1, -347⟩],
  [⟨0, 0, 1, 0, 0, 321⟩, ⟨0, 0, -1, 0, 0, -58⟩, ⟨0, 0, 0, 0, 1, 259⟩, ⟨0, 0, 0, 0, -1, 345⟩, ⟨0, 0, 1, 0, 1, 23⟩, ⟨0, 0, -1, 0, 1, -166⟩, ⟨0, 0, 1, 2, 1, 497⟩, ⟨2, 0, -1, 2, 2, 29⟩, ⟨0, 0, -2, 2, 1, 3⟩],
  [⟨0, 0, -1, 0, 0, 78⟩, ⟨0, 0, 0, 0, 1, -167⟩, ⟨0, 0, 0, 0, -1, -67⟩, ⟨0, 0, 1, 0, 1, 103⟩, ⟨0, 0, -1, 0, 1, -230⟩, ⟨0, 0, 1, 2, 1, 16⟩, ⟨2, 0, -1, 2, 2, 51⟩, ⟨0, 0, -2, 2, 1, -307⟩],
  [⟨0, 0, 0, 0, 1, 86⟩, ⟨0, 0, 0, 0, -1, 95⟩, ⟨0, 0, 1, 0, 1, 44⟩, ⟨0, 0, -1, 0, 1, -87⟩, ⟨0, 0, 1, 2, 1, 32⟩, ⟨2, 0, -1, 2, 2, 74⟩, ⟨0, 0, -2, 2, 1, -39⟩],
  [⟨0, 0, 0, 0, -1, 49⟩, ⟨0, 0, 1, 0, 1, -15⟩, ⟨0, 0, -1, 0, 1, 41⟩, ⟨0, 0, 1, 2, 1, 12⟩, ⟨2, 0, -1, 2, 2, -98⟩, ⟨0, 0, -2, 2, 1, -28⟩],
  [⟨0, 0, 1, 0, 1, 46⟩, ⟨0, 0, -1, 0, 1, 123⟩, ⟨0, 0, 1, 2, 1, 31⟩, ⟨2, 0, -1, 2, 2, 90⟩, ⟨0, 0, -2, 2, 1, 171⟩],
  [⟨0, 0, -1, 0, 1, 99⟩, ⟨0, 0, 1, 2, 1, 11⟩, ⟨2, 0, -1, 2, 2, 20⟩, ⟨0, 0, -2, 2, 1, 121⟩],
  [⟨0, 0, 1, 2, 1, 12⟩, ⟨2, 0, -1, 2, 2, 26⟩, ⟨0, 0, -2, 2, 1, 28⟩]]

/-- Squares for the upper bound. -/
def certN : List (List Tr) := [
  [⟨0, 0, 0, 0, 0, 1366⟩, ⟨-2, 1, 0, 2, 2, -341⟩, ⟨-2, -1, 0, 2, 2, 266⟩, ⟨-2, 0, 0, 2, 2, -120⟩, ⟨-2, 0, 0, 2, 1, 134⟩, ⟨0, 1, 0, 0, 0, -98⟩, ⟨0, -1, 0, 0, 0, -153⟩, ⟨0, 0, 0, 2, 1, -265⟩, ⟨0, 0, 0, 2, 2, -128⟩, ⟨0, 0, 1, 2, 2, -199⟩, ⟨0, 0, -1, 2, 2, 164⟩, ⟨0, 0, 1, 0, 0, -118⟩, ⟨0, 0, -1, 0, 0, 168⟩, ⟨0, 0, 0, 0, 1, -46⟩, ⟨0, 0, 0, 0, -1, -40⟩, ⟨0, 0, 1, 0, 1, 15⟩, ⟨0, 0, -1, 0, 1, -24⟩, ⟨0, 0, 1, 2, 1, 127⟩, ⟨2, 0, -1, 2, 2, -36⟩, ⟨0, 0, -2, 2, 1, 56⟩],
  [⟨-2, 1, 0, 2, 2, 552⟩, ⟨-2, -1, 0, 2, 2, 214⟩, ⟨-2, 0, 0, 2, 2, 80⟩, ⟨-2, 0, 0, 2, 1, -8⟩, ⟨0, 1, 0, 0, 0, 78⟩, ⟨0, -1, 0, 0, 0, -158⟩, ⟨0, 0, 0, 2, 1, -164⟩, ⟨0, 0, 0, 2, 2, -80⟩, ⟨0, 0, 1, 2, 2, -123⟩, ⟨0, 0, -1, 2, 2, 99⟩, ⟨0, 0, 1, 0, 0, -73⟩, ⟨0, 0, -1, 0, 0, 104⟩, ⟨0, 0, 0, 0, 1, 49⟩, ⟨0, 0, 0, 0, -1, -25⟩, ⟨0, 0, 1, 0, 1, 11⟩, ⟨0, 0, -1, 0, 1, -16⟩, ⟨0, 0, 1, 2, 1, 79⟩, ⟨2, 0, -1, 2, 2, -21⟩, ⟨0, 0, -2, 2, 1, 33⟩],
  [⟨-2, -1, 0, 2, 2, 427⟩, ⟨-2, 0, 0, 2, 2, 6⟩, ⟨-2, 0, 0, 2, 1, 89⟩, ⟨0, 1, 0, 0, 0, 21⟩, ⟨0, -1, 0, 0, 0, -77⟩, ⟨0, 0, 0, 2, 1, 240⟩, ⟨0, 0, 0, 2, 2, 120⟩, ⟨0, 0, 1, 2, 2, 174⟩, ⟨0, 0, -1, 2, 2, -151⟩, ⟨0, 0, 1, 0, 0, 110⟩, ⟨0, 0, -1, 0, 0, -157⟩, ⟨0, 0, 0, 0, -1, 37⟩, ⟨0, 0, 1, 0, 1, -16⟩, ⟨0, 0, -1, 0, 1, 23⟩, ⟨0, 0, 1, 2, 1, -118⟩, ⟨2, 0, -1, 2, 2, 31⟩, ⟨0, 0, -2, 2, 1, -50⟩],
  [⟨-2, 0, 0, 2, 2, 931⟩, ⟨-2, 0, 0, 2, 1, -24⟩, ⟨0, 1, 0, 0, 0, 100⟩, ⟨0, -1, 0, 0, 0, -707⟩, ⟨0, 0, 0, 2, 1, -38⟩, ⟨0, 0, 0, 2, 2, -109⟩, ⟨0, 0, 1, 2, 2, -7⟩, ⟨0, 0, -1, 2, 2, -76⟩, ⟨0, 0, 1, 0, 0, -8⟩, ⟨0, 0, -1, 0, 0, 78⟩, ⟨0, 0, 0, 0, 1, 169⟩, ⟨0, 0, 0, 0, -1, -2⟩, ⟨0, 0, 1, 0, 1, 13⟩, ⟨0, 0, -1, 0, 1, 56⟩, ⟨0, 0, 1, 2, 1, 11⟩, ⟨2, 0, -1, 2, 2, -3⟩, ⟨0, 0, -2, 2, 1, 5⟩],
  [⟨-2, 0, 0, 2, 1, 184⟩, ⟨0, 1, 0, 0, 0, 5⟩, ⟨0, -1, 0, 0, 0, -182⟩, ⟨0, 0, 0, 2, 1, 294⟩, ⟨0, 0, 0, 2, 2, -64⟩, ⟨0, 0, 1, 2, 2, 4⟩, ⟨0, 0, -1, 2, 2, -9⟩, ⟨0, 0, 1, 0, 0, -32⟩, ⟨0, 0, -1, 0, 0, -242⟩, ⟨0, 0, 0, 0, 1, 57⟩, ⟨0, 0, 0, 0, -1, 92⟩, ⟨0, 0, 1, 0, 1, -4⟩, ⟨0, 0, -1, 0, 1, 13⟩, ⟨0, 0, 1, 2, 1, -74⟩, ⟨2, 0, -1, 2, 2, 6⟩, ⟨0, 0, -2, 2, 1, 9⟩],
  [⟨0, 1, 0, 0, 0, 393⟩, ⟨0, -1, 0, 0, 0, 109⟩, ⟨0, 0, 0, 2, 1, -40⟩, ⟨0, 0, 0, 2, 2, -31⟩, ⟨0, 0, 1, 2, 2, -32⟩, ⟨0, 0, -1, 2, 2, 49⟩, ⟨0, 0, 1, 0, 0, -23⟩, ⟨0, 0, -1, 0, 0, 11⟩, ⟨0, 0, 0, 0, 1, -151⟩, ⟨0, 0, 0, 0, -1, 88⟩, ⟨0, 0, 1, 0, 1, -1⟩, ⟨0, 0, -1, 0, 1, -18⟩, ⟨0, 0, 1, 2, 1, 20⟩, ⟨2, 0, -1, 2, 2, -6⟩, ⟨0, 0, -2, 2, 1, 9⟩],
  [⟨0, -1, 0, 0, 0, 315⟩, ⟨0, 0, 0, 2, 1, -53⟩, ⟨0, 0, 0, 2, 2, -302⟩, ⟨0, 0, 1, 2, 2, -119⟩, ⟨0, 0, -1, 2, 2, -101⟩, ⟨0, 0, 1, 0, 0, -81⟩, ⟨0, 0, -1, 0, 0, 131⟩, ⟨0, 0, 0, 0, 1, 364⟩, ⟨0, 0, 0, 0, -1, -96⟩, ⟨0, 0, 1, 0, 1, 37⟩, ⟨0, 0, -1, 0, 1, 125⟩, ⟨0, 0, 1, 2, 1, 47⟩, ⟨2, 0, -1, 2, 2, -21⟩, ⟨0, 0, -2, 2, 1, 44⟩],
  [⟨0, 0, 0, 2, 1, 294⟩, ⟨0, 0, 0, 2, 2, 33⟩, ⟨0, 0, 1, 2, 2, -54⟩, ⟨0, 0, -1, 2, 2, -115⟩, ⟨0, 0, 1, 0, 0, 179⟩, ⟨0, 0, -1, 0, 0, -46⟩, ⟨0, 0, 0, 0, 1, -2⟩, ⟨0, 0, 0, 0, -1, 228⟩, ⟨0, 0, 1, 0, 1, -40⟩, ⟨0, 0, -1, 0, 1, 102⟩, ⟨0, 0, 1, 2, 1, -339⟩, ⟨2, 0, -1, 2, 2, 30⟩, ⟨0, 0, -2, 2, 1, 129⟩],
  [⟨0, 0, 0, 2, 2, 534⟩, ⟨0, 0, 1, 2, 2, 3⟩, ⟨0, 0, -1, 2, 2, -2⟩, ⟨0, 0, 1, 0, 0, -56⟩, ⟨0, 0, -1, 0, 0, -283⟩, ⟨0, 0, 0, 0, 1, -246⟩, ⟨0, 0, 0, 0, -1, -78⟩, ⟨0, 0, 1, 0, 1, -10⟩, ⟨0, 0, -1, 0, 1, -48⟩, ⟨0, 0, 1, 2, 1, 149⟩, ⟨2, 0, -1, 2, 2, 124⟩, ⟨0, 0, -2, 2, 1, 33⟩],
  [⟨0, 0, 1, 2, 2, 385⟩, ⟨0, 0, -1, 2, 2, 51⟩, ⟨0, 0, 1, 0, 0, 131⟩, ⟨0, 0, -1, 0, 0, 64⟩, ⟨0, 0, 0, 0, 1, -45⟩, ⟨0, 0, 0, 0, -1, -36⟩, ⟨0, 0, 1, 0, 1, -275⟩, ⟨0, 0, -1, 0, 1, -73⟩, ⟨0, 0, 1, 2, 1, 39⟩, ⟨2, 0, -1, 2, 2, -53⟩, ⟨0, 0, -2, 2, 1, 93⟩],
  [⟨0, 0, -1, 2, 2, 435⟩, ⟨0, 0, 1, 0, 0, 95⟩, ⟨0, 0, -1, 0, 0, 33⟩, ⟨0, 0, 0, 0, 1, 32⟩, ⟨0, 0, 0, 0, -1, 67⟩, ⟨0, 0, 1, 0, 1, 108⟩, ⟨0, 0, -1, 0, 1, -147⟩, ⟨0, 0, 1, 2, 1, -153⟩, ⟨2, 0, -1, 2, 2, 148⟩, ⟨0, 0, -2, 2, 1, -77⟩],
  [⟨0, 0, 1, 0, 0, 273⟩, ⟨0, 0, -1, 0, 0, 157⟩, ⟨0, 0, 0, 0, 1, -9⟩, ⟨0, 0, 0, 0, -1, 2⟩, ⟨0, 0, 1, 0, 1, 2⟩, ⟨0, 0, -1, 0, 1, -37⟩, ⟨0, 0, 1, 2, 1, -165⟩, ⟨2, 0, -1, 2, 2, -60⟩, ⟨0, 0, -2, 2, 1, -28⟩],
  [⟨0, 0, -1, 0, 0, 232⟩, ⟨0, 0, 0, 0, 1, -83⟩, ⟨0, 0, 0, 0, -1, 146⟩, ⟨0, 0, 1, 0, 1, 20⟩, ⟨0, 0, -1, 0, 1, 37⟩, ⟨0, 0, 1, 2, 1, 19⟩, ⟨2, 0, -1, 2, 2, -77⟩, ⟨0, 0, -2, 2, 1, -23⟩],
  [⟨0, 0, 0, 0, 1, 58⟩, ⟨0, 0, 0, 0, -1, 122⟩, ⟨0, 0, 1, 0, 1, -77⟩, ⟨0, 0, -1, 0, 1, -115⟩, ⟨0, 0, 1, 2, 1, -128⟩, ⟨2, 0, -1, 2, 2, -37⟩, ⟨0, 0, -2, 2, 1, -37⟩],
  [⟨0, 0, 0, 0, -1, 50⟩, ⟨0, 0, 1, 0, 1, 65⟩, ⟨0, 0, -1, 0, 1, -19⟩, ⟨0, 0, 1, 2, 1, -62⟩, ⟨2, 0, -1, 2, 2, 35⟩, ⟨0, 0, -2, 2, 1, 96⟩],
  [⟨0, 0, 1, 0, 1, 109⟩, ⟨0, 0, -1, 0, 1, 18⟩, ⟨0, 0, 1, 2, 1, 15⟩, ⟨2, 0, -1, 2, 2, 61⟩, ⟨0, 0, -2, 2, 1, 162⟩],
  [⟨0, 0, -1, 0, 1, 39⟩, ⟨0, 0, 1, 2, 1, 21⟩, ⟨2, 0, -1, 2, 2, 54⟩, ⟨0, 0, -2, 2, 1, 28⟩],
  [⟨0, 0, 1, 2, 1, 1⟩, ⟨2, 0, -1, 2, 2, 21⟩, ⟨0, 0, -2, 2, 1, 22⟩],
  [⟨2, 0, -1, 2, 2, 3⟩, ⟨0, 0, -2, 2, 1, 3⟩]]

/-- The coefficients of the cosines in `table22A`. -/
def tabZ : List Tr := [
  ⟨0, 0, 0, 0, 1, 92025⟩, ⟨-2, 0, 0, 2, 2, 5736⟩, ⟨0, 0, 0, 2, 2, 977⟩, ⟨0, 0, 0, 0, 2, -895⟩, ⟨0, 1, 0, 0, 0, 54⟩, ⟨0, 0, 1, 0, 0, -7⟩,
  ⟨-2, 1, 0, 2, 2, 224⟩, ⟨0, 0, 0, 2, 1, 200⟩, ⟨0, 0, 1, 2, 2, 129⟩, ⟨-2, -1, 0, 2, 2, -95⟩, ⟨-2, 0, 1, 0, 0, 0⟩, ⟨-2, 0, 0, 2, 1, -70⟩,
  ⟨0, 0, -1, 2, 2, -53⟩, ⟨2, 0, 0, 0, 0, 0⟩, ⟨0, 0, 1, 0, 1, -33⟩, ⟨2, 0, -1, 2, 2, 26⟩, ⟨0, 0, -1, 0, 1, 32⟩, ⟨0, 0, 1, 2, 1, 27⟩,
  ⟨-2, 0, 2, 0, 0, 0⟩, ⟨0, 0, -2, 2, 1, -24⟩, ⟨2, 0, 0, 2, 2, 16⟩, ⟨0, 0, 2, 2, 2, 13⟩, ⟨0, 0, 2, 0, 0, 0⟩, ⟨-2, 0, 1, 2, 2, -12⟩,
  ⟨0, 0, 0, 2, 0, 0⟩, ⟨-2, 0, 0, 2, 0, 0⟩, ⟨0, 0, -1, 2, 1, -10⟩, ⟨0, 2, 0, 0, 0, 0⟩, ⟨2, 0, -1, 0, 1, -8⟩, ⟨-2, 2, 0, 2, 2, 7⟩,
  ⟨0, 1, 0, 0, 1, 9⟩, ⟨-2, 0, 1, 0, 1, 7⟩, ⟨0, -1, 0, 0, 1, 6⟩, ⟨0, 0, 2, -2, 0, 0⟩, ⟨2, 0, -1, 2, 1, 5⟩, ⟨2, 0, 1, 2, 2, 3⟩,
  ⟨0, 1, 0, 2, 2, -3⟩, ⟨-2, 1, 1, 0, 0, 0⟩, ⟨0, -1, 0, 2, 2, 3⟩, ⟨2, 0, 0, 2, 1, 3⟩, ⟨2, 0, 1, 0, 0, 0⟩, ⟨-2, 0, 2, 2, 2, -3⟩,
  ⟨-2, 0, 1, 2, 1, -3⟩, ⟨2, 0, -2, 0, 1, 3⟩, ⟨2, 0, 0, 0, 1, 3⟩, ⟨0, -1, 1, 0, 0, 0⟩, ⟨-2, -1, 0, 2, 1, 3⟩, ⟨-2, 0, 0, 0, 1, 3⟩,
  ⟨0, 0, 2, 2, 1, 3⟩, ⟨-2, 0, 2, 0, 1, 0⟩, ⟨-2, 1, 0, 2, 1, 0⟩, ⟨0, 0, 1, -2, 0, 0⟩, ⟨-1, 0, 1, 0, 0, 0⟩, ⟨-2, 1, 0, 0, 0, 0⟩,
  ⟨1, 0, 0, 0, 0, 0⟩, ⟨0, 0, 1, 2, 0, 0⟩, ⟨0, 0, -2, 2, 2, 0⟩, ⟨-1, -1, 1, 0, 0, 0⟩, ⟨0, 1, 1, 0, 0, 0⟩, ⟨0, -1, 1, 2, 2, 0⟩,
  ⟨2, -1, -1, 2, 2, 0⟩, ⟨0, 0, 3, 2, 2, 0⟩, ⟨2, -1, 0, 2, 2, 0⟩]

/-- The coefficients of the cosines of `Nutation` less those of `ApproxNutation`, in units of 0.0001 second. -/
def diffZ : List Tr := [⟨0, 0, 0, 0, 1, -92000⟩, ⟨-2, 0, 0, 2, 2, -5700⟩, ⟨0, 0, 0, 2, 2, -1000⟩, ⟨0, 0, 0, 0, 2, 900⟩] ++ tabZ

theorem tabZ_eq (T : ℝ) : (table22A.map fun r => cos (r.arg T) * r.c0).sum = cosP T tabZ := by
  unfold cosP
  congr 1
  simp only [table22A, tabZ, List.map_cons, List.map_nil, Row.arg, Tr.ang]
  push_cast
  simp only [mul_comm, zero_mul]

set_option maxRecDepth 100000 in
theorem certP_size : size (collect (scaleP 10000 diffZ ++ negSqs certP)) ≤ 9600000 := by decide +kernel
set_option maxRecDepth 100000 in
theorem certN_size : size (collect (scaleP (-10000) diffZ ++ negSqs certN)) ≤ 9600000 := by decide +kernel

theorem diffZ_bound (T : ℝ) : |cosP T diffZ| ≤ 960 := by
  have h1 := sos_bound T _ _ _ _ certP_size
  have h2 := sos_bound T _ _ _ _ certN_size
  push_cast at h1 h2
  rw [abs_le]; constructor <;> linarith

/-- C116.  In obliquity the two are within a tenth of a second, as documented, for half a century either side of 2000. -/
theorem C116_approx_obliquity (jde : ℝ) (h : |J2000Century jde| ≤ 0.5) :
    |(ApproxNutation jde).2 - (Nutation jde).2| ≤ 0.1 * sec := by
  have hs := nsec_pos
  unfold Nutation ApproxNutation
  dsimp only
  rw [show (jde - 2451545) / 36525 = J2000Century jde from rfl]
  set T := J2000Century jde
  obtain ⟨a1, a2, a3⟩ := approx_args T h
  have b1 := rows_bound table22A (fun r => cos (r.arg T)) (fun _ => 0) (·.c1) T fun r => abs_cos_le_one _
  have s2 : (table22A.map fun r => |r.c1|).sum ≤ 14.2 := by norm_num [table22A]
  have e1 : (table22A.map fun r => cos (r.arg T) * (r.c0 + r.c1 * T)).sum =
      cosP T tabZ + (table22A.map fun r => cos (r.arg T) * (0 + r.c1 * T)).sum := by
    rw [← tabZ_eq, ← List.sum_map_add]
    congr 1
    refine List.map_congr_left fun r _ => ?_
    ring
  rw [e1]
  have e2 : cosP T diffZ = -92000 * cos (argΩ T) - 5700 * cos (2 * (argF T + argΩ T - argD T)) - 1000 * cos (2 * (argF T + argΩ T)) +
      900 * cos (2 * argΩ T) + cosP T tabZ := by
    unfold diffZ
    rw [cosP_append]
    simp only [cosP_cons, Tr.ang]
    push_cast
    rw [show (0 : ℝ) * argD T + 0 * argM T + 0 * argN T + 0 * argF T + 1 * argΩ T = argΩ T by ring,
      show (-2 : ℝ) * argD T + 0 * argM T + 0 * argN T + 2 * argF T + 2 * argΩ T = 2 * (argF T + argΩ T - argD T) by ring,
      show (0 : ℝ) * argD T + 0 * argM T + 0 * argN T + 2 * argF T + 2 * argΩ T = 2 * (argF T + argΩ T) by ring,
      show (0 : ℝ) * argD T + 0 * argM T + 0 * argN T + 0 * argF T + 2 * argΩ T = 2 * argΩ T by ring]
    simp only [cosP, List.map_nil, List.sum_nil]
    ring
  have e3 := diffZ_bound T
  rw [e2] at e3
  set R := (table22A.map fun r => cos (r.arg T) * (0 + r.c1 * T)).sum
  set u := (125.04452 - 1934.136261 * T) * π / 180
  set v := (280.4665 + 36000.7698 * T) * π / 180
  set w := (218.3165 + 481267.8813 * T) * π / 180
  have hv : cos (2 * v - 2 * (2 * π)) = cos (2 * v) := by
    have := cos_sub_nat_mul_two_pi (2 * v) 2
    push_cast at this
    exact this
  have c1 := abs_le.mp ((abs_cos_sub_cos (argΩ T) u).trans a1)
  have c2 := abs_le.mp ((abs_cos_sub_cos _ _).trans a2)
  have c3 := abs_le.mp ((abs_cos_sub_cos _ _).trans a3)
  have c4 := abs_le.mp ((abs_cos_sub_cos (2 * argΩ T) (2 * u)).trans
    (show |2 * argΩ T - 2 * u| ≤ 0.00002 by rw [← mul_sub, abs_mul, abs_of_pos (by norm_num : (0 : ℝ) < 2)]; linarith))
  rw [hv] at c2
  rw [← sub_mul, abs_mul, abs_of_pos hs]
  refine mul_le_mul_of_nonneg_right ?_ hs.le
  have hR : |R| ≤ 7.1 := by
    have z : (table22A.map fun _ => |(0 : ℝ)|).sum = 0 := by simp
    rw [z] at b1
    refine b1.trans ?_
    nlinarith [abs_nonneg T]
  generalize cos (argΩ T) = A at *
  generalize cos (2 * (argF T + argΩ T - argD T)) = B at *
  generalize cos (2 * (argF T + argΩ T)) = C at *
  generalize cos (2 * argΩ T) = D at *
  generalize cosP T tabZ = X at *
  clear * - hR e3 c1 c2 c3 c4
  rw [abs_le] at hR e3 ⊢
  norm_num at *
  constructor <;> linarith [c1.1, c1.2, c2.1, c2.2, c3.1, c3.2, c4.1, c4.2]

/-- An instant of the year 1987 is within the hypothesis. -/
example : |J2000Century 2446895.5| ≤ 0.5 := by
  unfold J2000Century
  rw [abs_le]; constructor <;> norm_num

end Verif.Props
