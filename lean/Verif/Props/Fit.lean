import Verif.Lemmas.Fit

/-! Properties C30–C33: curve fitting. -/

namespace Verif.Props

open Verif.Model.Fit Verif.Spec Verif.Lemmas

theorem acc2_det_pos (p : List (ℝ × ℝ)) (g : ℝ → ℝ → ℝ) (h : ∃ q ∈ p, ∃ r ∈ p, g q.1 q.2 ≠ g r.1 r.2) :
    0 < (p.length : ℝ) * acc p (fun x y => g x y * g x y) - acc p g * acc p g := by
  obtain ⟨q, hq, r, hr, hne⟩ := h
  have hn : 0 < (p.length : ℝ) := by exact_mod_cast List.length_pos_of_mem hq
  set m := acc p g / p.length with hm
  have hsum : acc p (fun x y => (g x y - m) ^ 2) = acc p (fun x y => g x y * g x y) - acc p g * acc p g / p.length := by
    have e : acc p (fun x y => (g x y - m) ^ 2) = acc p fun x y => (g x y * g x y + (-2 * m) * g x y) + m ^ 2 :=
      acc_congr _ _ _ fun _ _ => by ring
    rw [e, acc_add p (fun x y => g x y * g x y + (-2 * m) * g x y), acc_add p (fun x y => g x y * g x y), acc_mul, acc_const, hm]
    field_simp
    ring
  have hpos : 0 < acc p (fun x y => (g x y - m) ^ 2) := by
    by_cases h1 : g q.1 q.2 = m
    · refine acc_pos p (fun x y => (g x y - m) ^ 2) (fun _ _ => sq_nonneg _) r hr ?_
      have : g r.1 r.2 - m ≠ 0 := by rw [← h1]; exact sub_ne_zero.2 (Ne.symm hne)
      positivity
    · refine acc_pos p (fun x y => (g x y - m) ^ 2) (fun _ _ => sq_nonneg _) q hq ?_
      have : g q.1 q.2 - m ≠ 0 := sub_ne_zero.2 h1
      positivity
  rw [hsum, sub_pos, div_lt_iff₀ hn] at hpos
  linarith

/-- C30.  The fitted line has the smallest sum of squared residuals of all lines, and is the only such line. -/
theorem C30_linear (p : List (ℝ × ℝ)) (hx : TwoX p) (a' b' : ℝ) :
    sse p (fun x => (Linear p).1 * x + (Linear p).2) ≤ sse p (fun x => a' * x + b') ∧
    ((a', b') ≠ Linear p → sse p (fun x => (Linear p).1 * x + (Linear p).2) < sse p (fun x => a' * x + b')) := by
  have hd := acc2_det_pos p (fun x _ => x) hx
  obtain ⟨a, ha⟩ : ∃ a, a = (Linear p).1 := ⟨_, rfl⟩
  obtain ⟨b, hb⟩ : ∃ b, b = (Linear p).2 := ⟨_, rfl⟩
  set sx := acc p (fun x _ => x) with hsx
  set sy := acc p (fun _ y => y) with hsy
  set sx2 := acc p (fun x _ => x * x) with hsx2
  set sxy := acc p (fun x y => x * y) with hsxy
  have ha' : a * ((p.length : ℝ) * sx2 - sx * sx) = p.length * sxy - sx * sy := by
    rw [ha]; exact div_mul_cancel₀ _ hd.ne'
  have hb' : b * ((p.length : ℝ) * sx2 - sx * sx) = sy * sx2 - sx * sxy := by
    rw [hb]; exact div_mul_cancel₀ _ hd.ne'
  have n1 : a * sx2 + b * sx = sxy := by
    apply mul_left_cancel₀ hd.ne'; linear_combination sx2 * ha' + sx * hb'
  have n2 : a * sx + b * p.length = sy := by
    apply mul_left_cancel₀ hd.ne'; linear_combination sx * ha' + (p.length : ℝ) * hb'
  have horth : acc p (fun x y => (y - (a * x + b)) * ((a' * x + b') - (a * x + b))) = 0 := by
    have e : acc p (fun x y => (y - (a * x + b)) * ((a' * x + b') - (a * x + b))) =
        acc p fun x y => ((((a' - a) * (x * y) + (b' - b) * y) + (-(a' - a) * a) * (x * x)) +
          (-(a' - a) * b - (b' - b) * a) * x) + (-(b' - b) * b) :=
      acc_congr _ _ _ fun _ _ => by ring
    rw [e, acc_add p (fun x y => (((a' - a) * (x * y) + (b' - b) * y) + (-(a' - a) * a) * (x * x)) +
          (-(a' - a) * b - (b' - b) * a) * x), acc_add p (fun x y => ((a' - a) * (x * y) + (b' - b) * y) + (-(a' - a) * a) * (x * x)),
      acc_add p (fun x y => (a' - a) * (x * y) + (b' - b) * y), acc_add p (fun x y => (a' - a) * (x * y)), acc_const,
      acc_mul p _ (fun x y => x * y), acc_mul p _ (fun _ y => y), acc_mul p _ (fun x _ => x * x), acc_mul p _ (fun x _ => x)]
    rw [← hsx, ← hsy, ← hsx2, ← hsxy]
    linear_combination -(a' - a) * n1 - (b' - b) * n2
  have key := sse_orth p (fun x => a * x + b) (fun x => a' * x + b') horth
  rw [← ha, ← hb, key]
  have hnn := acc_nonneg p (fun x _ => ((a' * x + b') - (a * x + b)) ^ 2) (fun _ _ => sq_nonneg _)
  refine ⟨by linarith, fun hne => ?_⟩
  rcases hnn.lt_or_eq with hlt | heq
  · linarith
  · exfalso
    have hz := sq_acc_zero p (fun x _ => (a' * x + b') - (a * x + b)) heq.symm
    obtain ⟨q, hq, r, hr, hqr⟩ := hx
    have e1 := hz q hq
    have e2 := hz r hr
    have e3 : (a' - a) * (q.1 - r.1) = 0 := by linear_combination e1 - e2
    have e4 : a' = a := by
      rcases mul_eq_zero.1 e3 with h | h
      · linarith
      · exact absurd (by linarith) hqr
    have e5 : b' = b := by rw [e4] at e1; linarith
    exact hne (by rw [e4, e5, ha, hb])

/-- C32.  The coefficients of `Func3` give the smallest sum of squared residuals among all linear
combinations of the three functions, uniquely, for any data on which the functions are linearly independent. -/
theorem C32_func3 (p : List (ℝ × ℝ)) (f0 f1 f2 : ℝ → ℝ) (hind : Indep3 p f0 f1 f2) (a' b' c' : ℝ) :
    sse p (fun x => (Func3 p f0 f1 f2).1 * f0 x + (Func3 p f0 f1 f2).2.1 * f1 x + (Func3 p f0 f1 f2).2.2 * f2 x) ≤
      sse p (fun x => a' * f0 x + b' * f1 x + c' * f2 x) ∧
    ((a', b', c') ≠ Func3 p f0 f1 f2 →
      sse p (fun x => (Func3 p f0 f1 f2).1 * f0 x + (Func3 p f0 f1 f2).2.1 * f1 x + (Func3 p f0 f1 f2).2.2 * f2 x) <
        sse p (fun x => a' * f0 x + b' * f1 x + c' * f2 x)) := by
  have hD := gram3_ne_zero p f0 f1 f2 hind
  obtain ⟨a, ha⟩ : ∃ a, a = (Func3 p f0 f1 f2).1 := ⟨_, rfl⟩
  obtain ⟨b, hb⟩ : ∃ b, b = (Func3 p f0 f1 f2).2.1 := ⟨_, rfl⟩
  obtain ⟨c, hc⟩ : ∃ c, c = (Func3 p f0 f1 f2).2.2 := ⟨_, rfl⟩
  simp only [gram3] at hD
  simp only [Func3] at ha hb hc
  set M := acc p fun x _ => f0 x * f0 x with hM
  set P := acc p fun x _ => f0 x * f1 x with hP
  set Q := acc p fun x _ => f0 x * f2 x with hQ
  set R := acc p fun x _ => f1 x * f1 x with hR
  set S := acc p fun x _ => f1 x * f2 x with hS
  set T := acc p fun x _ => f2 x * f2 x with hT
  set U := acc p fun x y => y * f0 x with hU
  set V := acc p fun x y => y * f1 x with hV
  set W := acc p fun x y => y * f2 x with hW
  obtain ⟨D, hDD⟩ : ∃ D, D = M * R * T + 2 * P * Q * S - M * S * S - R * Q * Q - T * P * P := ⟨_, rfl⟩
  rw [← hDD] at hD ha hb hc
  rw [eq_div_iff hD] at ha hb hc
  have n0 : a * M + b * P + c * Q = U := by
    apply mul_left_cancel₀ hD; rw [show D * (a * M + b * P + c * Q) = (a * D) * M + (b * D) * P + (c * D) * Q by ring, ha, hb, hc, hDD]; ring
  have n1 : a * P + b * R + c * S = V := by
    apply mul_left_cancel₀ hD; rw [show D * (a * P + b * R + c * S) = (a * D) * P + (b * D) * R + (c * D) * S by ring, ha, hb, hc, hDD]; ring
  have n2 : a * Q + b * S + c * T = W := by
    apply mul_left_cancel₀ hD; rw [show D * (a * Q + b * S + c * T) = (a * D) * Q + (b * D) * S + (c * D) * T by ring, ha, hb, hc, hDD]; ring
  have horth : acc p (fun x y => (y - (a * f0 x + b * f1 x + c * f2 x)) *
      ((a' * f0 x + b' * f1 x + c' * f2 x) - (a * f0 x + b * f1 x + c * f2 x))) = 0 := by
    have e : acc p (fun x y => (y - (a * f0 x + b * f1 x + c * f2 x)) *
      ((a' * f0 x + b' * f1 x + c' * f2 x) - (a * f0 x + b * f1 x + c * f2 x))) =
        (a' - a) * (U - (a * M + b * P + c * Q)) + (b' - b) * (V - (a * P + b * R + c * S)) +
          (c' - c) * (W - (a * Q + b * S + c * T)) := by
      rw [hM, hP, hQ, hR, hS, hT, hU, hV, hW]
      clear_value M P Q R S T U V W
      clear hM hP hQ hR hS hT hU hV hW
      clear n0 n1 n2 ha hb hc hD hDD hind
      induction p with
      | nil => simp [acc_nil]
      | cons z l ih => simp only [acc_cons]; rw [ih]; ring
    rw [e, n0, n1, n2]; ring
  have key := sse_orth p (fun x => a * f0 x + b * f1 x + c * f2 x) (fun x => a' * f0 x + b' * f1 x + c' * f2 x) horth
  have hF : Func3 p f0 f1 f2 = (a, b, c) := by
    simp only [Func3]
    rw [← hM, ← hP, ← hQ, ← hR, ← hS, ← hT, ← hU, ← hV, ← hW, ← hDD, ← ha, ← hb, ← hc]
    simp [hD]
  rw [hF]
  simp only
  rw [key]
  have hnn := acc_nonneg p (fun x _ => ((a' * f0 x + b' * f1 x + c' * f2 x) - (a * f0 x + b * f1 x + c * f2 x)) ^ 2) (fun _ _ => sq_nonneg _)
  refine ⟨by linarith, fun hne => ?_⟩
  rcases hnn.lt_or_eq with hlt | heq
  · linarith
  · exfalso
    have hz := sq_acc_zero p (fun x _ => (a' * f0 x + b' * f1 x + c' * f2 x) - (a * f0 x + b * f1 x + c * f2 x)) heq.symm
    obtain ⟨e1, e2, e3⟩ := hind (a' - a) (b' - b) (c' - c) fun q hq => by linear_combination hz q hq
    apply hne
    rw [sub_eq_zero.1 e1, sub_eq_zero.1 e2, sub_eq_zero.1 e3]

/-- Three different abscissae make 1, x, x² independent. -/
theorem indep_quadratic (p : List (ℝ × ℝ)) (h : ∃ q ∈ p, ∃ r ∈ p, ∃ s ∈ p, q.1 ≠ r.1 ∧ r.1 ≠ s.1 ∧ q.1 ≠ s.1) :
    Indep3 p (fun x => x * x) (fun x => x) (fun _ => 1) := by
  obtain ⟨q, hq, r, hr, s, hs, h1, h2, h3⟩ := h
  intro a b c hz
  have e1 := hz q hq
  have e2 := hz r hr
  have e3 := hz s hs
  have f1 : a * (q.1 + r.1) + b = 0 := by
    apply mul_left_cancel₀ (sub_ne_zero.2 h1); linear_combination e1 - e2
  have f2 : a * (r.1 + s.1) + b = 0 := by
    apply mul_left_cancel₀ (sub_ne_zero.2 h2); linear_combination e2 - e3
  have f3 : a = 0 := by
    apply mul_left_cancel₀ (sub_ne_zero.2 h3); linear_combination f1 - f2
  have f4 : b = 0 := by rw [f3] at f1; linarith
  exact ⟨f3, f4, by rw [f3, f4] at e1; linarith⟩

/-- C32.  `Func3` with x², x, 1 is `Quadratic`. -/
theorem C32_func3_quadratic (p : List (ℝ × ℝ)) :
    Func3 p (fun x => x * x) (fun x => x) (fun _ => 1) = Quadratic p := by
  simp only [Func3, Quadratic, mul_one]
  have e1 : acc p (fun x _ => x * x * x) = acc p fun x _ => x * (x * x) := acc_congr _ _ _ fun _ _ => by ring
  have e2 : acc p (fun x y => y * (x * x)) = acc p fun x y => x * x * y := acc_congr _ _ _ fun _ _ => by ring
  have e3 : acc p (fun x y => y * x) = acc p fun x y => x * y := acc_congr _ _ _ fun _ _ => by ring
  rw [e1, e2, e3, acc_const, mul_one]
  refine Prod.ext ?_ (Prod.ext ?_ ?_) <;> simp only <;> congr 1 <;> ring

/-- C31.  The fitted parabola has the smallest sum of squared residuals of all parabolas, uniquely, for data with
three different abscissae. -/
theorem C31_quadratic (p : List (ℝ × ℝ)) (h : ∃ q ∈ p, ∃ r ∈ p, ∃ s ∈ p, q.1 ≠ r.1 ∧ r.1 ≠ s.1 ∧ q.1 ≠ s.1)
    (a' b' c' : ℝ) :
    sse p (fun x => (Quadratic p).1 * x ^ 2 + (Quadratic p).2.1 * x + (Quadratic p).2.2) ≤
      sse p (fun x => a' * x ^ 2 + b' * x + c') ∧
    ((a', b', c') ≠ Quadratic p →
      sse p (fun x => (Quadratic p).1 * x ^ 2 + (Quadratic p).2.1 * x + (Quadratic p).2.2) <
        sse p (fun x => a' * x ^ 2 + b' * x + c')) := by
  have := C32_func3 p _ _ _ (indep_quadratic p h) a' b' c'
  rw [C32_func3_quadratic] at this
  simpa only [mul_one, pow_two] using this

/-- C31.  An exact parabola is recovered. -/
theorem C31_exact (p : List (ℝ × ℝ)) (h : ∃ q ∈ p, ∃ r ∈ p, ∃ s ∈ p, q.1 ≠ r.1 ∧ r.1 ≠ s.1 ∧ q.1 ≠ s.1)
    (a b c : ℝ) (hp : ∀ q ∈ p, q.2 = a * q.1 ^ 2 + b * q.1 + c) : Quadratic p = (a, b, c) := by
  by_contra hne
  have h1 := (C31_quadratic p h a b c).2 (Ne.symm hne)
  have h2 : sse p (fun x => a * x ^ 2 + b * x + c) = 0 := by
    rw [sse_acc, acc_congr p _ (fun _ _ => 0) (fun q hq => by rw [hp q hq]; ring), acc_const, mul_zero]
  have h3 : 0 ≤ sse p (fun x => (Quadratic p).1 * x ^ 2 + (Quadratic p).2.1 * x + (Quadratic p).2.2) := by
    rw [sse_acc]; exact acc_nonneg _ _ fun _ _ => sq_nonneg _
  linarith

/-- C32.  `Func1` minimises the sum of squared residuals over multiples of `f`, uniquely, unless `f` vanishes
on all the data. -/
theorem C32_func1 (p : List (ℝ × ℝ)) (f : ℝ → ℝ) (hf : ∃ q ∈ p, f q.1 ≠ 0) (a' : ℝ) :
    sse p (fun x => Func1 p f * f x) ≤ sse p (fun x => a' * f x) ∧
    (a' ≠ Func1 p f → sse p (fun x => Func1 p f * f x) < sse p (fun x => a' * f x)) := by
  obtain ⟨q, hq, hne⟩ := hf
  have hs : 0 < acc p (fun x _ => f x * f x) :=
    acc_pos p (fun x _ => f x * f x) (fun _ _ => mul_self_nonneg _) q hq (mul_self_pos.2 hne)
  obtain ⟨a, ha⟩ : ∃ a, a = Func1 p f := ⟨_, rfl⟩
  rw [← ha]
  simp only [Func1] at ha
  rw [eq_div_iff hs.ne'] at ha
  have horth : acc p (fun x y => (y - a * f x) * (a' * f x - a * f x)) = 0 := by
    have e : acc p (fun x y => (y - a * f x) * (a' * f x - a * f x)) =
        acc p fun x y => (a' - a) * (y * f x) + (-(a' - a) * a) * (f x * f x) := acc_congr _ _ _ fun _ _ => by ring
    rw [e, acc_add p (fun x y => (a' - a) * (y * f x)), acc_mul p _ (fun x y => y * f x), acc_mul p _ (fun x _ => f x * f x), ← ha]
    ring
  have key := sse_orth p (fun x => a * f x) (fun x => a' * f x) horth
  rw [key]
  have hnn := acc_nonneg p (fun x _ => (a' * f x - a * f x) ^ 2) (fun _ _ => sq_nonneg _)
  refine ⟨by linarith, fun hne' => ?_⟩
  have := acc_pos p (fun x _ => (a' * f x - a * f x) ^ 2) (fun _ _ => sq_nonneg _) q hq (by
    have : a' * f q.1 - a * f q.1 ≠ 0 := by rw [← sub_mul]; exact mul_ne_zero (sub_ne_zero.2 hne') hne
    positivity)
  linarith

theorem corr_core (p : List (ℝ × ℝ)) (hx : TwoX p) :
    0 < (p.length : ℝ) * acc p (fun x _ => x * x) - acc p (fun x _ => x) * acc p (fun x _ => x) ∧
    ∃ K, 0 < K ∧ K * (((p.length : ℝ) * acc p (fun x _ => x * x) - acc p (fun x _ => x) * acc p (fun x _ => x)) *
        ((p.length : ℝ) * acc p (fun _ y => y * y) - acc p (fun _ y => y) * acc p (fun _ y => y)) -
      ((p.length : ℝ) * acc p (fun x y => x * y) - acc p (fun x _ => x) * acc p (fun _ y => y)) ^ 2) =
      sse p (fun x => (Linear p).1 * x + (Linear p).2) := by
  have hd := acc2_det_pos p (fun x _ => x) hx
  have hn : 0 < (p.length : ℝ) := by
    obtain ⟨q, hq, -⟩ := hx; exact_mod_cast List.length_pos_of_mem hq
  refine ⟨hd, 1 / (p.length * ((p.length : ℝ) * acc p (fun x _ => x * x) - acc p (fun x _ => x) * acc p (fun x _ => x))),
    by positivity, ?_⟩
  rw [sse_acc]
  have e : ∀ a b : ℝ, acc p (fun x y => (y - (a * x + b)) ^ 2) =
      acc p (fun _ y => y * y) - 2 * a * acc p (fun x y => x * y) - 2 * b * acc p (fun _ y => y) +
        a ^ 2 * acc p (fun x _ => x * x) + 2 * a * b * acc p (fun x _ => x) + b ^ 2 * p.length := by
    intro a b
    clear hd hn hx
    induction p with
    | nil => simp [acc_nil]
    | cons z l ih => simp only [acc_cons]; rw [ih]; push_cast [List.length_cons]; ring
  rw [e]
  simp only [Linear]
  have hd' := hd.ne'
  have hn' := hn.ne'
  clear e hx hd hn
  generalize acc p (fun x _ => x * x) = sx2 at *
  generalize acc p (fun x _ => x) = sx at *
  generalize acc p (fun _ y => y) = sy at *
  generalize acc p (fun _ y => y * y) = sy2 at *
  generalize acc p (fun x y => x * y) = sxy at *
  generalize (p.length : ℝ) = n at *
  have hdd : n * sx2 - sx ^ 2 ≠ 0 := by rwa [pow_two]
  field_simp
  ring

/-- C33.  The correlation coefficient lies in [-1, 1], whatever the data. -/
theorem C33_range (p : List (ℝ × ℝ)) (hx : TwoX p) (hy : TwoX (p.map Prod.swap)) :
    -1 ≤ CorrelationCoefficient p ∧ CorrelationCoefficient p ≤ 1 := by
  obtain ⟨hA, K, hK, hKe⟩ := corr_core p hx
  have hB : 0 < (p.length : ℝ) * acc p (fun _ y => y * y) - acc p (fun _ y => y) * acc p (fun _ y => y) := by
    apply acc2_det_pos p (fun _ y => y)
    obtain ⟨q, hq, r, hr, h⟩ := hy
    rw [List.mem_map] at hq hr
    obtain ⟨q, hq, rfl⟩ := hq
    obtain ⟨r, hr, rfl⟩ := hr
    exact ⟨q, hq, r, hr, h⟩
  have hs : 0 ≤ sse p (fun x => (Linear p).1 * x + (Linear p).2) := by
    rw [sse_acc]; exact acc_nonneg _ _ fun _ _ => sq_nonneg _
  rw [← hKe] at hs
  have hcs := nonneg_of_mul_nonneg_right hs hK
  rw [← abs_le]
  unfold CorrelationCoefficient
  simp only
  rw [← Real.sqrt_mul hA.le, abs_div, abs_of_pos (Real.sqrt_pos.2 (mul_pos hA hB)), div_le_one (Real.sqrt_pos.2 (mul_pos hA hB))]
  apply Real.abs_le_sqrt
  linarith

/-- C33.  Symmetry. -/
theorem C33_symmetric (p : List (ℝ × ℝ)) : CorrelationCoefficient (p.map Prod.swap) = CorrelationCoefficient p := by
  have h : ∀ g : ℝ → ℝ → ℝ, acc (p.map Prod.swap) g = acc p fun x y => g y x := by
    intro g
    induction p with
    | nil => rfl
    | cons a l ih => rw [List.map_cons, acc_cons, acc_cons, ih]; rfl
  simp only [CorrelationCoefficient, h, List.length_map]
  rw [acc_congr p (fun x y => y * x) (fun x y => x * y) fun _ _ => by ring]
  congr 1 <;> ring

/-- C33.  It is 1 exactly for points on a rising line and -1 exactly for points on a falling line. -/
theorem C33_line (p : List (ℝ × ℝ)) (hx : TwoX p) (hy : TwoX (p.map Prod.swap)) :
    (CorrelationCoefficient p = 1 ↔ ∃ m b, 0 < m ∧ ∀ q ∈ p, q.2 = m * q.1 + b) ∧
    (CorrelationCoefficient p = -1 ↔ ∃ m b, m < 0 ∧ ∀ q ∈ p, q.2 = m * q.1 + b) := by
  obtain ⟨hA, K, hK, hKe⟩ := corr_core p hx
  have hB : 0 < (p.length : ℝ) * acc p (fun _ y => y * y) - acc p (fun _ y => y) * acc p (fun _ y => y) := by
    apply acc2_det_pos p (fun _ y => y)
    obtain ⟨q, hq, r, hr, h⟩ := hy
    rw [List.mem_map] at hq hr
    obtain ⟨q, hq, rfl⟩ := hq
    obtain ⟨r, hr, rfl⟩ := hr
    exact ⟨q, hq, r, hr, h⟩
  have hL1 : (Linear p).1 * ((p.length : ℝ) * acc p (fun x _ => x * x) - acc p (fun x _ => x) * acc p (fun x _ => x)) =
      (p.length : ℝ) * acc p (fun x y => x * y) - acc p (fun x _ => x) * acc p (fun _ y => y) :=
    div_mul_cancel₀ _ hA.ne'
  have hr : CorrelationCoefficient p = ((p.length : ℝ) * acc p (fun x y => x * y) - acc p (fun x _ => x) * acc p (fun _ y => y)) /
      Real.sqrt (((p.length : ℝ) * acc p (fun x _ => x * x) - acc p (fun x _ => x) * acc p (fun x _ => x)) *
        ((p.length : ℝ) * acc p (fun _ y => y * y) - acc p (fun _ y => y) * acc p (fun _ y => y))) := by
    rw [Real.sqrt_mul hA.le]; rfl
  set A := (p.length : ℝ) * acc p (fun x _ => x * x) - acc p (fun x _ => x) * acc p (fun x _ => x)
  set B := (p.length : ℝ) * acc p (fun _ y => y * y) - acc p (fun _ y => y) * acc p (fun _ y => y)
  set Cv := (p.length : ℝ) * acc p (fun x y => x * y) - acc p (fun x _ => x) * acc p (fun _ y => y)
  have hAB := mul_pos hA hB
  have hsp := Real.sqrt_pos.2 hAB
  -- collinear iff Cauchy-Schwarz is an equality
  have fwd : Cv ^ 2 = A * B → ∀ q ∈ p, q.2 = (Linear p).1 * q.1 + (Linear p).2 := by
    intro h
    have h0 : sse p (fun x => (Linear p).1 * x + (Linear p).2) = 0 := by rw [← hKe, h]; ring
    rw [sse_acc] at h0
    intro q hq
    have := sq_acc_zero p (fun x y => y - ((Linear p).1 * x + (Linear p).2)) h0 q hq
    linarith
  have bwd : ∀ m b, (∀ q ∈ p, q.2 = m * q.1 + b) → Cv ^ 2 = A * B ∧ Linear p = (m, b) := by
    intro m b hl
    have hz : sse p (fun x => m * x + b) = 0 := by
      rw [sse_acc, acc_congr p _ (fun _ _ => 0) (fun q hq => by rw [hl q hq]; ring), acc_const, mul_zero]
    have hs : 0 ≤ sse p (fun x => (Linear p).1 * x + (Linear p).2) := by
      rw [sse_acc]; exact acc_nonneg _ _ fun _ _ => sq_nonneg _
    have hle := (C30_linear p hx m b).1
    rw [hz] at hle
    have h0 := le_antisymm hle hs
    rw [← hKe] at h0
    refine ⟨?_, ?_⟩
    · rcases mul_eq_zero.1 h0 with h | h
      · exact absurd h hK.ne'
      · linarith
    · by_contra hne
      have := (C30_linear p hx m b).2 (Ne.symm hne)
      rw [hz] at this
      linarith
  constructor
  · rw [hr, div_eq_one_iff_eq hsp.ne']
    constructor
    · intro h
      have hsq : Cv ^ 2 = A * B := by rw [h, Real.sq_sqrt hAB.le]
      refine ⟨_, _, ?_, fwd hsq⟩
      have : 0 < Cv := by rw [h]; exact hsp
      rw [← hL1] at this
      by_contra hge
      push Not at hge
      have := mul_nonneg (neg_nonneg.2 hge) hA.le
      linarith
    · rintro ⟨m, b, hm, hl⟩
      obtain ⟨h1, h2⟩ := bwd m b hl
      rw [h2] at hL1
      rw [← h1, Real.sqrt_sq]
      rw [← hL1]; exact (mul_pos hm hA).le
  · rw [hr, div_eq_iff hsp.ne']
    constructor
    · intro h
      have hsq : Cv ^ 2 = A * B := by rw [h]; rw [neg_one_mul, neg_sq, Real.sq_sqrt hAB.le]
      refine ⟨_, _, ?_, fwd hsq⟩
      have : Cv < 0 := by rw [h]; linarith
      rw [← hL1] at this
      by_contra hge
      push Not at hge
      have := mul_nonneg hge hA.le
      linarith
    · rintro ⟨m, b, hm, hl⟩
      obtain ⟨h1, h2⟩ := bwd m b hl
      rw [h2] at hL1
      rw [← h1, ← neg_sq, Real.sqrt_sq]
      · ring
      · rw [← hL1]; simp only; nlinarith

example : TwoX [(0, 1), (1, 3), (2, 2)] ∧ TwoX ([((0 : ℝ), (1 : ℝ)), (1, 3), (2, 2)].map Prod.swap) := by
  constructor
  · exact ⟨(0, 1), by simp, (1, 3), by simp, by norm_num⟩
  · exact ⟨(1, 0), by simp, (3, 1), by simp, by norm_num⟩

end Verif.Props
