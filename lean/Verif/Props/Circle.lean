import Verif.Model.Circle
import Verif.Props.Angle
/-
C68: the smallest circle containing three bodies.
-/
namespace Verif.Props

open Real Verif.Go Verif.Model Verif.Spec Verif.Lemmas

/-- The closed ball about q with radius r contains the three points. -/
def Encloses {E : Type*} [NormedAddCommGroup E] (q : E) (r : ℝ) (p1 p2 p3 : E) : Prop := dist q p1 ≤ r ∧ dist q p2 ≤ r ∧ dist q p3 ≤ r

/-- The diameter D is that of the smallest ball containing the three points. -/
def SmallestDiameter {E : Type*} [NormedAddCommGroup E] (D : ℝ) (p1 p2 p3 : E) : Prop :=
  (∃ q, Encloses q (D / 2) p1 p2 p3) ∧ ∀ q r, Encloses q r p1 p2 p3 → D / 2 ≤ r

/-- The three sides once sorted. -/
noncomputable def sorted (a b c : ℝ) : ℝ × Bool := by
  classical exact
  if a * a ≥ b * b + c * c then (a, true)
  else (2 * a * b * c / sqrt ((a + b + c) * (a + b - c) * (b + c - a) * (a + c - b)), false)

/-- The four ways through the two exchanges. -/
theorem ofSides_cases (a b c : ℝ) : (Circle.ofSides a b c = sorted a b c ∧ b ≤ a ∧ c ≤ a) ∨ (Circle.ofSides a b c = sorted b a c ∧ a ≤ b ∧ c ≤ b) ∨
    (Circle.ofSides a b c = sorted c b a ∧ b ≤ c ∧ a ≤ c) ∨ (Circle.ofSides a b c = sorted c a b ∧ a ≤ c ∧ b ≤ c) := by
  unfold Circle.ofSides sorted
  by_cases h1 : b > a
  · by_cases h2 : c > b
    · right; right; right
      simp only [if_pos h1, if_pos h2]
      exact ⟨trivial, by linarith, by linarith⟩
    · right; left
      simp only [if_pos h1, if_neg h2]
      exact ⟨trivial, by linarith, by linarith⟩
  · by_cases h2 : c > a
    · right; right; left
      simp only [if_neg h1, if_pos h2]
      exact ⟨trivial, by linarith, by linarith⟩
    · left
      simp only [if_neg h1, if_neg h2]
      exact ⟨trivial, by linarith, by linarith⟩

/-- Sixteen times the square of the area. -/
theorem heron (a b c : ℝ) : (a + b + c) * (a + b - c) * (b + c - a) * (a + c - b) =
    2 * a ^ 2 * b ^ 2 + 2 * b ^ 2 * c ^ 2 + 2 * c ^ 2 * a ^ 2 - a ^ 4 - b ^ 4 - c ^ 4 := by ring

theorem heron_pos {a b c : ℝ} (hb : 0 ≤ b) (hc : 0 ≤ c) (hba : b ≤ a) (hca : c ≤ a) (h : a * a < b * b + c * c) :
    0 < a ∧ 0 < b ∧ 0 < c ∧ 0 < (a + b + c) * (a + b - c) * (b + c - a) * (a + c - b) := by
  have b0 : 0 < b := by
    rcases hb.lt_or_eq with h0 | h0
    · exact h0
    · rw [← h0] at h; nlinarith
  have c0 : 0 < c := by
    rcases hc.lt_or_eq with h0 | h0
    · exact h0
    · rw [← h0] at h; nlinarith
  have a0 : 0 < a := by linarith
  have : a < b + c := by nlinarith
  refine ⟨a0, b0, c0, ?_⟩
  have h1 : 0 < a + b - c := by linarith
  have h2 : 0 < b + c - a := by linarith
  have h3 : 0 < a + c - b := by linarith
  positivity

section plane
variable {E : Type*} [NormedAddCommGroup E] [InnerProductSpace ℝ E]

/-- Squared distance of a point from a combination, with p as origin. -/
theorem comb_sq (u e f : E) (v w : ℝ) : ‖u - v • e - w • f‖ ^ 2 = ‖u‖ ^ 2 - 2 * v * inner ℝ u e - 2 * w * inner ℝ u f + v ^ 2 * ‖e‖ ^ 2 + w ^ 2 * ‖f‖ ^ 2 +
    2 * v * w * inner ℝ e f := by
  rw [norm_sub_sq_real, norm_sub_sq_real, inner_sub_left, real_inner_smul_right, real_inner_smul_right, real_inner_smul_left, real_inner_smul_right,
    norm_smul, norm_smul, mul_pow, mul_pow, Real.norm_eq_abs, Real.norm_eq_abs, sq_abs, sq_abs]
  ring

set_option maxHeartbeats 1000000 in
theorem smallest_sorted {a b c : ℝ} (p q r : E) (ha : dist p q = a) (hb : dist q r = b) (hc : dist r p = c) (hba : b ≤ a) (hca : c ≤ a) :
    SmallestDiameter (sorted a b c).1 p q r := by
  have hb0 : 0 ≤ b := hb ▸ dist_nonneg
  have hc0 : 0 ≤ c := hc ▸ dist_nonneg
  have ha0 : 0 ≤ a := ha ▸ dist_nonneg
  -- vectors from p
  set e := q - p with he
  set f := r - p with hf
  have ne : ‖e‖ = a := by rw [he, ← dist_eq_norm, dist_comm, ha]
  have nf : ‖f‖ = c := by rw [hf, ← dist_eq_norm, hc]
  have nef : ‖e - f‖ = b := by rw [he, hf, sub_sub_sub_cancel_right, ← dist_eq_norm, hb]
  have hin : inner ℝ e f = (a ^ 2 + c ^ 2 - b ^ 2) / 2 := by
    have := norm_sub_sq_real e f
    rw [ne, nf, nef] at this
    linarith
  unfold sorted
  by_cases h : a * a ≥ b * b + c * c
  · rw [if_pos h]
    dsimp only
    constructor
    · refine ⟨p + (1 / 2 : ℝ) • e, ?_, ?_, ?_⟩
      · rw [dist_eq_norm, add_sub_cancel_left, norm_smul, ne]
        norm_num
        linarith
      · rw [dist_eq_norm, show p + (1 / 2 : ℝ) • e - q = -((1 / 2 : ℝ) • e) by rw [he]; module, norm_neg, norm_smul, ne]
        norm_num
        linarith
      · rw [dist_eq_norm, show p + (1 / 2 : ℝ) • e - r = -(f - (1 / 2 : ℝ) • e - (0 : ℝ) • f) by rw [hf]; module, norm_neg]
        have := comb_sq f e f (1 / 2) 0
        rw [real_inner_comm, hin, nf, ne] at this
        have h2 : ‖f - (1 / 2 : ℝ) • e - (0 : ℝ) • f‖ ^ 2 ≤ (a / 2) ^ 2 := by rw [this]; nlinarith
        exact abs_le_of_sq_le_sq' h2 (by linarith) |>.2
    · rintro x ρ ⟨h1, h2, -⟩
      have := dist_triangle_left p q x
      rw [ha] at this
      linarith
  · rw [if_neg h]
    dsimp only
    push Not at h
    obtain ⟨a0, b0, c0, hS⟩ := heron_pos hb0 hc0 hba hca h
    set S := (a + b + c) * (a + b - c) * (b + c - a) * (a + c - b) with hSd
    have hS2 := heron a b c
    rw [← hSd] at hS2
    have hs0 : 0 < sqrt S := sqrt_pos.2 hS
    have hss : sqrt S ^ 2 = S := sq_sqrt hS.le
    -- square of the radius
    have hR : (2 * a * b * c / sqrt S / 2) ^ 2 = a ^ 2 * b ^ 2 * c ^ 2 / S := by
      rw [div_pow, div_pow, hss]; field_simp
    have hR0 : 0 ≤ 2 * a * b * c / sqrt S / 2 := by positivity
    set R := 2 * a * b * c / sqrt S / 2 with hRd
    set v := c ^ 2 * (a ^ 2 + b ^ 2 - c ^ 2) / S with hv
    set w := a ^ 2 * (b ^ 2 + c ^ 2 - a ^ 2) / S with hw
    have hv0 : 0 ≤ v := div_nonneg (mul_nonneg (sq_nonneg _) (by nlinarith)) hS.le
    have hw0 : 0 ≤ w := div_nonneg (mul_nonneg (sq_nonneg _) (by nlinarith)) hS.le
    have hvw : 1 - v - w = b ^ 2 * (a ^ 2 + c ^ 2 - b ^ 2) / S := by
      rw [hv, hw]
      field_simp
      rw [hS2]; ring
    have hvw0 : 0 ≤ 1 - v - w := by
      rw [hvw]; exact div_nonneg (mul_nonneg (sq_nonneg _) (by nlinarith)) hS.le
    -- distances of the centre
    have hG : v ^ 2 * a ^ 2 + w ^ 2 * c ^ 2 + 2 * v * w * ((a ^ 2 + c ^ 2 - b ^ 2) / 2) = R ^ 2 := by
      rw [hR, hv, hw]
      field_simp
      rw [hS2]; ring
    have g1 : 2 * v * a ^ 2 + 2 * w * ((a ^ 2 + c ^ 2 - b ^ 2) / 2) = a ^ 2 := by
      rw [hv, hw]
      field_simp
      rw [hS2]; ring
    have g2 : 2 * v * ((a ^ 2 + c ^ 2 - b ^ 2) / 2) + 2 * w * c ^ 2 = c ^ 2 := by
      rw [hv, hw]
      field_simp
      rw [hS2]; ring
    change (∃ q', Encloses q' R p q r) ∧ ∀ q' r', Encloses q' r' p q r → R ≤ r'
    clear_value v w R
    constructor
    · refine ⟨p + v • e + w • f, ?_, ?_, ?_⟩
      · rw [dist_eq_norm, show p + v • e + w • f - p = -((0 : E) - v • e - w • f) by module, norm_neg]
        refine abs_le_of_sq_le_sq' ?_ hR0 |>.2
        rw [comb_sq, inner_zero_left, inner_zero_left, norm_zero, ne, nf, hin]
        linarith
      · rw [dist_eq_norm, show p + v • e + w • f - q = -(e - v • e - w • f) by rw [he]; module, norm_neg]
        refine abs_le_of_sq_le_sq' ?_ hR0 |>.2
        rw [comb_sq, real_inner_self_eq_norm_sq, ne, nf, hin]
        linarith only [g1, hG]
      · rw [dist_eq_norm, show p + v • e + w • f - r = -(f - v • e - w • f) by rw [hf]; module, norm_neg]
        refine abs_le_of_sq_le_sq' ?_ hR0 |>.2
        rw [comb_sq, real_inner_self_eq_norm_sq, real_inner_comm, ne, nf, hin]
        linarith only [g2, hG]
    · rintro x ρ ⟨h1, h2, h3⟩
      have hρ : 0 ≤ ρ := dist_nonneg.trans h1
      set u := x - p with hu
      rw [dist_eq_norm] at h1 h2 h3
      have s1 : ‖u‖ ^ 2 ≤ ρ ^ 2 := pow_le_pow_left₀ (norm_nonneg _) h1 2
      have s2 : ‖u - e‖ ^ 2 ≤ ρ ^ 2 := by
        rw [show u - e = x - q by rw [hu, he]; abel]
        exact pow_le_pow_left₀ (norm_nonneg _) h2 2
      have s3 : ‖u - f‖ ^ 2 ≤ ρ ^ 2 := by
        rw [show u - f = x - r by rw [hu, hf]; abel]
        exact pow_le_pow_left₀ (norm_nonneg _) h3 2
      have k := comb_sq u e f v w
      have k0 := sq_nonneg ‖u - v • e - w • f‖
      rw [norm_sub_sq_real, ne] at s2
      rw [norm_sub_sq_real, nf] at s3
      rw [ne, nf, hin] at k
      have m1 := mul_le_mul_of_nonneg_left s1 hvw0
      have m2 := mul_le_mul_of_nonneg_left s2 hv0
      have m3 := mul_le_mul_of_nonneg_left s3 hw0
      have : R ^ 2 ≤ ρ ^ 2 := by
        have g3 : v * a ^ 2 + w * c ^ 2 = 2 * R ^ 2 := by
          linear_combination -v * g1 - w * g2 + 2 * hG
        linarith only [m1, m2, m3, k, k0, g3, hG]
      exact abs_le_of_sq_le_sq' this hρ |>.2

end plane

/-- Separations as used by `Smallest`. -/
theorem Smallest_eq (r1 d1 r2 d2 r3 d3 : ℝ) : Circle.Smallest r1 d1 r2 d2 r3 d3 =
    Circle.ofSides (sep r1 d1 r2 d2) (sep r2 d2 r3 d3) (sep r3 d3 r1 d1) := by
  unfold Circle.Smallest
  rw [← C44_sepHav, ← C44_sepHav, ← C44_sepHav]
  rfl

/-- C68: in a plane, for three points whose distances are the three separations, the result is the diameter of the smallest circle containing
them: there is one with this diameter, and no smaller one. -/
theorem C68_smallest {E : Type*} [NormedAddCommGroup E] [InnerProductSpace ℝ E] (p1 p2 p3 : E) (r1 d1 r2 d2 r3 d3 : ℝ)
    (h12 : dist p1 p2 = sep r1 d1 r2 d2) (h23 : dist p2 p3 = sep r2 d2 r3 d3) (h31 : dist p3 p1 = sep r3 d3 r1 d1) :
    SmallestDiameter (Circle.Smallest r1 d1 r2 d2 r3 d3).1 p1 p2 p3 := by
  rw [Smallest_eq]
  rcases ofSides_cases (sep r1 d1 r2 d2) (sep r2 d2 r3 d3) (sep r3 d3 r1 d1) with ⟨e, x, y⟩ | ⟨e, x, y⟩ | ⟨e, x, y⟩ | ⟨e, x, y⟩ <;> rw [e]
  · exact smallest_sorted p1 p2 p3 h12 h23 h31 x y
  · obtain ⟨⟨q, q1, q2, q3⟩, m⟩ := smallest_sorted p3 p2 p1 (by rw [dist_comm, h23]) (by rw [dist_comm, h12]) (by rw [dist_comm, h31]) x y
    exact ⟨⟨q, q3, q2, q1⟩, fun q r ⟨a, b, c⟩ => m q r ⟨c, b, a⟩⟩
  · obtain ⟨⟨q, q1, q2, q3⟩, m⟩ := smallest_sorted p1 p3 p2 (by rw [dist_comm, h31]) (by rw [dist_comm, h23]) (by rw [dist_comm, h12]) x y
    exact ⟨⟨q, q1, q3, q2⟩, fun q r ⟨a, b, c⟩ => m q r ⟨a, c, b⟩⟩
  · obtain ⟨⟨q, q1, q2, q3⟩, m⟩ := smallest_sorted p3 p1 p2 h31 h12 h23 x y
    exact ⟨⟨q, q2, q3, q1⟩, fun q r ⟨a, b, c⟩ => m q r ⟨c, a, b⟩⟩

theorem sorted_ge {a b c : ℝ} (hb : 0 ≤ b) (hc : 0 ≤ c) (hba : b ≤ a) (hca : c ≤ a) :
    a ≤ (sorted a b c).1 ∧ ((sorted a b c).2 = true → (sorted a b c).1 = a) ∧ ((sorted a b c).2 = true ↔ b ^ 2 + c ^ 2 ≤ a ^ 2) := by
  unfold sorted
  by_cases h : a * a ≥ b * b + c * c
  · rw [if_pos h]
    exact ⟨le_rfl, fun _ => rfl, by simp; nlinarith⟩
  · rw [if_neg h]
    push Not at h
    obtain ⟨a0, b0, c0, hS⟩ := heron_pos hb hc hba hca h
    refine ⟨?_, by simp, by simp; nlinarith⟩
    dsimp only
    rw [le_div_iff₀ (sqrt_pos.2 hS)]
    have : sqrt ((a + b + c) * (a + b - c) * (b + c - a) * (a + c - b)) ≤ 2 * b * c := by
      rw [sqrt_le_left (by positivity), heron]
      nlinarith [sq_nonneg (b ^ 2 + c ^ 2 - a ^ 2)]
    nlinarith

/-- C68: the diameter is at least each separation; in type I it is the largest one; the solution is of type I exactly if the triangle is not
acute. -/
theorem C68_bounds (r1 d1 r2 d2 r3 d3 : ℝ) :
    sep r1 d1 r2 d2 ≤ (Circle.Smallest r1 d1 r2 d2 r3 d3).1 ∧ sep r2 d2 r3 d3 ≤ (Circle.Smallest r1 d1 r2 d2 r3 d3).1 ∧
    sep r3 d3 r1 d1 ≤ (Circle.Smallest r1 d1 r2 d2 r3 d3).1 ∧
    ((Circle.Smallest r1 d1 r2 d2 r3 d3).2 = true →
      (Circle.Smallest r1 d1 r2 d2 r3 d3).1 = max (sep r1 d1 r2 d2) (max (sep r2 d2 r3 d3) (sep r3 d3 r1 d1))) ∧
    ((Circle.Smallest r1 d1 r2 d2 r3 d3).2 = true ↔
      sep r1 d1 r2 d2 ^ 2 + sep r2 d2 r3 d3 ^ 2 + sep r3 d3 r1 d1 ^ 2 ≤
        2 * max (sep r1 d1 r2 d2) (max (sep r2 d2 r3 d3) (sep r3 d3 r1 d1)) ^ 2) := by
  rw [Smallest_eq]
  have a0 : 0 ≤ sep r1 d1 r2 d2 := InnerProductGeometry.angle_nonneg _ _
  have b0 : 0 ≤ sep r2 d2 r3 d3 := InnerProductGeometry.angle_nonneg _ _
  have c0 : 0 ≤ sep r3 d3 r1 d1 := InnerProductGeometry.angle_nonneg _ _
  set a := sep r1 d1 r2 d2
  set b := sep r2 d2 r3 d3
  set c := sep r3 d3 r1 d1
  rcases ofSides_cases a b c with ⟨e, x, y⟩ | ⟨e, x, y⟩ | ⟨e, x, y⟩ | ⟨e, x, y⟩ <;> rw [e]
  · obtain ⟨h1, h2, h3⟩ := sorted_ge b0 c0 x y
    rw [max_eq_left (max_le x y), h3]
    refine ⟨h1, by linarith, by linarith, fun h => h2 (h3.2 h), ?_⟩
    constructor <;> intro h <;> linarith
  · obtain ⟨h1, h2, h3⟩ := sorted_ge a0 c0 x y
    rw [max_eq_left y, max_eq_right x, h3]
    refine ⟨by linarith, h1, by linarith, fun h => h2 (h3.2 h), ?_⟩
    constructor <;> intro h <;> linarith
  · obtain ⟨h1, h2, h3⟩ := sorted_ge b0 a0 x y
    rw [max_eq_right x, max_eq_right y, h3]
    refine ⟨by linarith, by linarith, h1, fun h => h2 (h3.2 h), ?_⟩
    constructor <;> intro h <;> linarith
  · obtain ⟨h1, h2, h3⟩ := sorted_ge a0 b0 x y
    rw [max_eq_right y, max_eq_right x, h3]
    refine ⟨by linarith, by linarith, h1, fun h => h2 (h3.2 h), ?_⟩
    constructor <;> intro h <;> linarith

/-- Closed form, symmetric in the sides. -/
theorem ofSides_closed (a b c : ℝ) : Circle.ofSides a b c = (by
    classical exact
    if a ^ 2 + b ^ 2 + c ^ 2 ≤ 2 * max a (max b c) ^ 2 then (max a (max b c), true)
    else (2 * a * b * c / sqrt (2 * a ^ 2 * b ^ 2 + 2 * b ^ 2 * c ^ 2 + 2 * c ^ 2 * a ^ 2 - a ^ 4 - b ^ 4 - c ^ 4), false)) := by
  have key : ∀ x y z : ℝ, sorted x y z = (by
    classical exact
    if x ^ 2 + y ^ 2 + z ^ 2 ≤ 2 * x ^ 2 then (x, true)
    else (2 * x * y * z / sqrt (2 * x ^ 2 * y ^ 2 + 2 * y ^ 2 * z ^ 2 + 2 * z ^ 2 * x ^ 2 - x ^ 4 - y ^ 4 - z ^ 4), false)) := by
    intro x y z
    unfold sorted
    by_cases h : x * x ≥ y * y + z * z
    · rw [if_pos h, if_pos (by nlinarith)]
    · rw [if_neg h, if_neg (by push Not at h ⊢; nlinarith), heron]
  rcases ofSides_cases a b c with ⟨e, x, y⟩ | ⟨e, x, y⟩ | ⟨e, x, y⟩ | ⟨e, x, y⟩ <;> rw [e, key]
  · rw [max_eq_left (max_le x y)]
  · rw [max_eq_left y, max_eq_right x, show b ^ 2 + a ^ 2 + c ^ 2 = a ^ 2 + b ^ 2 + c ^ 2 by ring]
    congr 3
    · ring
    · congr 1; ring
  · rw [max_eq_right x, max_eq_right y, show c ^ 2 + b ^ 2 + a ^ 2 = a ^ 2 + b ^ 2 + c ^ 2 by ring]
    congr 3
    · ring
    · congr 1; ring
  · rw [max_eq_right y, max_eq_right x, show c ^ 2 + a ^ 2 + b ^ 2 = a ^ 2 + b ^ 2 + c ^ 2 by ring]
    congr 3
    · ring
    · congr 1; ring

/-- C68: the result does not depend on the order of the bodies (these two exchanges generate all orders). -/
theorem C68_order (r1 d1 r2 d2 r3 d3 : ℝ) :
    Circle.Smallest r1 d1 r2 d2 r3 d3 = Circle.Smallest r2 d2 r1 d1 r3 d3 ∧
    Circle.Smallest r1 d1 r2 d2 r3 d3 = Circle.Smallest r2 d2 r3 d3 r1 d1 := by
  have comm : ∀ r d r' d', sep r d r' d' = sep r' d' r d := fun _ _ _ _ => InnerProductGeometry.angle_comm _ _
  have s1 : ∀ a b c, Circle.ofSides a b c = Circle.ofSides b c a := by
    intro a b c
    rw [ofSides_closed, ofSides_closed, show b ^ 2 + c ^ 2 + a ^ 2 = a ^ 2 + b ^ 2 + c ^ 2 by ring,
      show max b (max c a) = max a (max b c) by rw [← max_assoc, max_comm]]
    congr 3
    · ring
    · congr 1; ring
  have s2 : ∀ a b c, Circle.ofSides a b c = Circle.ofSides a c b := by
    intro a b c
    rw [ofSides_closed, ofSides_closed, show a ^ 2 + c ^ 2 + b ^ 2 = a ^ 2 + b ^ 2 + c ^ 2 by ring, max_comm c b]
    congr 3
    · ring
    · congr 1; ring
  simp only [Smallest_eq]
  constructor
  · rw [comm r2 d2 r1 d1, comm r1 d1 r3 d3, comm r3 d3 r2 d2, s2]
  · rw [s1]

/-- The hypotheses of `C68_smallest` can be met for all triples of directions: there is a plane triangle with the three separations as sides. -/
theorem C68_triangle (r1 d1 r2 d2 r3 d3 : ℝ) : ∃ p1 p2 p3 : EuclideanSpace ℝ (Fin 2),
    dist p1 p2 = sep r1 d1 r2 d2 ∧ dist p2 p3 = sep r2 d2 r3 d3 ∧ dist p3 p1 = sep r3 d3 r1 d1 := by
  have a0 : 0 ≤ sep r1 d1 r2 d2 := InnerProductGeometry.angle_nonneg _ _
  have b0 : 0 ≤ sep r2 d2 r3 d3 := InnerProductGeometry.angle_nonneg _ _
  have c0 : 0 ≤ sep r3 d3 r1 d1 := InnerProductGeometry.angle_nonneg _ _
  have t1 : sep r1 d1 r2 d2 ≤ sep r3 d3 r1 d1 + sep r2 d2 r3 d3 := by
    have := InnerProductGeometry.angle_le_angle_add_angle (dir r1 d1) (dir r3 d3) (dir r2 d2)
    rw [InnerProductGeometry.angle_comm (dir r1 d1) (dir r3 d3), InnerProductGeometry.angle_comm (dir r3 d3) (dir r2 d2)] at this
    exact this
  have t2 : sep r2 d2 r3 d3 ≤ sep r1 d1 r2 d2 + sep r3 d3 r1 d1 := by
    have := InnerProductGeometry.angle_le_angle_add_angle (dir r2 d2) (dir r1 d1) (dir r3 d3)
    rw [InnerProductGeometry.angle_comm (dir r2 d2) (dir r1 d1), InnerProductGeometry.angle_comm (dir r1 d1) (dir r3 d3)] at this
    exact this
  have t3 : sep r3 d3 r1 d1 ≤ sep r2 d2 r3 d3 + sep r1 d1 r2 d2 := by
    have := InnerProductGeometry.angle_le_angle_add_angle (dir r3 d3) (dir r2 d2) (dir r1 d1)
    rw [InnerProductGeometry.angle_comm (dir r3 d3) (dir r2 d2), InnerProductGeometry.angle_comm (dir r2 d2) (dir r1 d1)] at this
    exact this
  generalize sep r1 d1 r2 d2 = a at *
  generalize sep r2 d2 r3 d3 = b at *
  generalize sep r3 d3 r1 d1 = c at *
  rcases a0.eq_or_lt with h | h
  · subst h
    have hbc : b = c := by linarith
    subst hbc
    refine ⟨!₂[0, 0], !₂[0, 0], !₂[b, 0], ?_, ?_, ?_⟩ <;> simp [EuclideanSpace.dist_eq, sqrt_sq_eq_abs, abs_of_nonneg b0]
  · set x := (a ^ 2 + c ^ 2 - b ^ 2) / (2 * a) with hx
    have hxa : 2 * a * x = a ^ 2 + c ^ 2 - b ^ 2 := by rw [hx]; field_simp
    have hy : 0 ≤ c ^ 2 - x ^ 2 := by
      have h1 : 0 ≤ c - x := by
        have : 0 ≤ 2 * a * (c - x) := by nlinarith [mul_nonneg (by linarith : 0 ≤ b - (a - c)) (by linarith : 0 ≤ b + (a - c))]
        by_contra hc; push Not at hc; nlinarith
      have h2 : 0 ≤ c + x := by
        have : 0 ≤ 2 * a * (c + x) := by nlinarith [mul_nonneg (by linarith : 0 ≤ (a + c) - b) (by linarith : 0 ≤ (a + c) + b)]
        by_contra hc; push Not at hc; nlinarith
      nlinarith [mul_nonneg h1 h2]
    have hs := sq_sqrt hy
    refine ⟨!₂[0, 0], !₂[a, 0], !₂[x, sqrt (c ^ 2 - x ^ 2)], ?_, ?_, ?_⟩
    · simp [EuclideanSpace.dist_eq, sqrt_sq_eq_abs, abs_of_pos h]
    · rw [EuclideanSpace.dist_eq]
      simp only [Fin.sum_univ_two, Real.dist_eq, sq_abs]
      simp only [Matrix.cons_val_zero, Matrix.cons_val_one, Matrix.cons_val_fin_one]
      rw [zero_sub, neg_sq, hs, show (a - x) ^ 2 + (c ^ 2 - x ^ 2) = b ^ 2 by linear_combination -hxa, sqrt_sq b0]
    · rw [EuclideanSpace.dist_eq]
      simp only [Fin.sum_univ_two, Real.dist_eq, sq_abs]
      simp only [Matrix.cons_val_zero, Matrix.cons_val_one, Matrix.cons_val_fin_one]
      rw [sub_zero, sub_zero, hs, show x ^ 2 + (c ^ 2 - x ^ 2) = c ^ 2 by ring, sqrt_sq c0]

/-- A case of type II: three directions at right angles to each other. -/
example : (Circle.ofSides (π / 2) (π / 2) (π / 2)).2 = false := by
  rw [ofSides_closed, max_self, max_self, if_neg]
  have := pi_pos
  nlinarith

end Verif.Props
