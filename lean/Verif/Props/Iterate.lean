import Verif.Lemmas.Iterate

/-! Properties C34–C36, C79: package iterate. -/

namespace Verif.Props

open Verif.Go Verif.Model.Iterate Verif.Lemmas

/-- C34.  What DecimalPlaces does, for every function, start, precision and limit: it returns the first
iterate whose step is below `10^-places` if that occurs within the limit, having called the function exactly
up to that step, and fails otherwise after exactly `maxIterations` calls (none for a negative limit). -/
theorem C34_decimalPlaces (better : ℝ → ℝ) (start : ℝ) (places maxIter : ℤ) :
    (∀ r c, DecimalPlaces better start places maxIter = (some r, c) →
      ∃ k : ℕ, (k : ℤ) < maxIter ∧ c = k + 1 ∧ r = better^[k + 1] start ∧
        |better^[k + 1] start - better^[k] start| < (10 : ℝ) ^ (-places) ∧
        ∀ j < k, ¬ |better^[j + 1] start - better^[j] start| < (10 : ℝ) ^ (-places)) ∧
    (∀ c, DecimalPlaces better start places maxIter = (none, c) →
      c = maxIter.toNat ∧ ∀ j : ℕ, (j : ℤ) < maxIter → ¬ |better^[j + 1] start - better^[j] start| < (10 : ℝ) ^ (-places)) := by
  unfold DecimalPlaces
  constructor
  · intro r c h
    obtain ⟨k, h1, h2, h3, h4, h5⟩ := decimalLoop_some _ _ _ _ _ _ h
    exact ⟨k, by omega, h2, h3, h4, h5⟩
  · intro c h
    have h1 := (decimalLoop_calls better ((10 : ℝ) ^ (-places)) maxIter.toNat start).2 (by rw [h])
    have h2 := (decimalLoop_none better ((10 : ℝ) ^ (-places)) maxIter.toNat start).1 (by rw [h])
    rw [h] at h1
    exact ⟨h1, fun j hj => h2 j (by omega)⟩

/-- C34.  For a contraction the result is close to the fixed point. -/
theorem C34_contraction (better : ℝ → ℝ) (q fp : ℝ) (hq0 : 0 ≤ q) (hq : q < 1) (hfp : better fp = fp)
    (hc : ∀ x y, |better x - better y| ≤ q * |x - y|) (start : ℝ) (places maxIter : ℤ) (r : ℝ) (c : ℕ)
    (h : DecimalPlaces better start places maxIter = (some r, c)) :
    |r - fp| ≤ q / (1 - q) * (10 : ℝ) ^ (-places) := by
  obtain ⟨k, -, -, h3, h4, -⟩ := (C34_decimalPlaces better start places maxIter).1 r c h
  rw [Function.iterate_succ_apply'] at h3 h4
  set s := better^[k] start
  have e1 : |r - fp| ≤ q * |s - fp| := by
    have := hc s fp
    rw [hfp] at this
    rw [h3]; exact this
  have e2 : |s - fp| ≤ |s - r| + |r - fp| := by
    have := abs_add_le (s - r) (r - fp)
    simpa using this
  rw [← h3, abs_sub_comm] at h4
  have h1q : 0 < 1 - q := by linarith
  rw [div_mul_eq_mul_div, le_div_iff₀ h1q]
  nlinarith [abs_nonneg (r - fp), abs_nonneg (s - r)]

/-- The hypotheses are met: x ↦ x/2 + 1 from 0 to one decimal place. -/
example : ∃ c, DecimalPlaces (fun x => x / 2 + 1) 1.9 1 5 = (some 1.95, c) := by
  refine ⟨1, ?_⟩
  simp only [DecimalPlaces]
  rw [show (5 : ℤ).toNat = 4 + 1 from rfl, decimalLoop]
  norm_num [abs_of_pos]

/-- C35.  Binary search for a root of a continuous function with opposite signs at the bounds. -/
theorem C35_binaryRoot (f : ℝ → ℝ) (hf : Continuous f) (lower upper : ℝ) (hs : f lower * f upper < 0) :
    ∃ r, f r = 0 ∧ r ∈ Set.uIcc lower upper ∧ |BinaryRoot f lower upper - r| ≤ |upper - lower| / 2 ^ 52 := by
  refine binaryLoop_spec f hf 52 0 lower upper ?_ (Or.inr (Or.inr (by norm_num)))
  rcases mul_neg_iff.1 hs with h | h
  · exact Or.inl ⟨h.1.le, h.2⟩
  · exact Or.inr (Or.inl ⟨h.1, h.2.le⟩)

/-- C35.  The answer is always between the bounds, whatever the function. -/
theorem C35_between (f : ℝ → ℝ) (lower upper : ℝ) : BinaryRoot f lower upper ∈ Set.uIcc lower upper := by
  have key : ∀ (fuel : ℕ) (mid lo up yl : ℝ), mid ∈ Set.uIcc lo up ∨ 0 < fuel → binaryLoop f fuel mid lo up yl ∈ Set.uIcc lo up := by
    intro fuel
    induction fuel with
    | zero => intro mid lo up yl h; simpa [binaryLoop] using h
    | succ n ih =>
      intro mid lo up yl _
      have hmid : (lo + up) / 2 ∈ Set.uIcc lo up := by
        rw [Set.mem_uIcc]
        rcases le_total lo up with h | h
        · left; constructor <;> linarith
        · right; constructor <;> linarith
      unfold binaryLoop
      dsimp only
      split_ifs with h0 hs
      · exact hmid
      · have := ih ((lo + up) / 2) ((lo + up) / 2) up (f ((lo + up) / 2)) (Or.inl Set.left_mem_uIcc)
        exact Set.uIcc_subset_uIcc hmid Set.right_mem_uIcc this
      · have := ih ((lo + up) / 2) lo ((lo + up) / 2) yl (Or.inl Set.right_mem_uIcc)
        exact Set.uIcc_subset_uIcc Set.left_mem_uIcc hmid this
  exact key 52 0 lower upper _ (Or.inr (by norm_num))

example : (fun x : ℝ => x ^ 3 - 2) 1 * (fun x : ℝ => x ^ 3 - 2) 2 < 0 := by norm_num

/-- C36 (partial).  A root at a bound is found if it is the upper bound, or if it is the lower one and the
function is negative at the other.  Missing: a root exactly at the lower bound followed by positive values. -/
theorem C36_root_at_bound_partial (f : ℝ → ℝ) (hf : Continuous f) (lower upper : ℝ)
    (hs : (f upper = 0 ∧ f lower ≠ 0) ∨ (f lower = 0 ∧ f upper < 0)) :
    ∃ r, f r = 0 ∧ r ∈ Set.uIcc lower upper ∧ |BinaryRoot f lower upper - r| ≤ |upper - lower| / 2 ^ 52 := by
  refine binaryLoop_spec f hf 52 0 lower upper ?_ (Or.inr (Or.inr (by norm_num)))
  rcases hs with ⟨h1, h2⟩ | ⟨h1, h2⟩
  · rcases lt_or_gt_of_ne h2 with h | h
    · exact Or.inr (Or.inl ⟨h, h1.ge⟩)
    · exact Or.inr (Or.inr ⟨h, h1.le⟩)
  · exact Or.inl ⟨h1.ge, h2⟩

/-- C36, violation: whenever the root is exactly the lower bound and the function is positive beyond it
(for example f(x) = x on [0, 1]), the search runs away to the other bound. -/
theorem C36_violation (f : ℝ → ℝ) (lower upper : ℝ) (hlu : lower < upper) (h0 : f lower = 0)
    (hpos : ∀ x, lower < x → x < upper → 0 < f x) :
    BinaryRoot f lower upper = upper - (upper - lower) / 2 ^ 52 := by
  unfold BinaryRoot
  rw [binaryLoop_runaway f 52 0 lower upper hlu hpos _ h0.ge (by norm_num)]

example : BinaryRoot (fun x => x) 0 1 = 1 - 1 / 2 ^ 52 := by
  rw [C36_violation (fun x => x) 0 1 one_pos rfl (fun x h _ => h)]; norm_num

/-- C79 (partial).  A value returned by FullPrecision is an iterate which differs from its predecessor by less than
`10⁻¹⁵` of itself; it is not zero. -/
theorem C79_fullPrecision_partial (better : ℝ → ℝ) (start : ℝ) (maxIter : ℤ) (r : ℝ) (c : ℕ)
    (h : FullPrecision better start maxIter = (some r, c)) :
    ∃ k : ℕ, (k : ℤ) < maxIter ∧ c = k + 1 ∧ r = better^[k + 1] start ∧ r ≠ 0 ∧ |r - better^[k] start| < |r| / 10 ^ 15 := by
  have key : ∀ (fuel : ℕ) (start : ℝ) (c : ℕ), fullLoop better fuel start = (some r, c) →
      ∃ k : ℕ, k < fuel ∧ c = k + 1 ∧ r = better^[k + 1] start ∧ r ≠ 0 ∧ |r - better^[k] start| < |r| / 10 ^ 15 := by
    intro fuel
    induction fuel with
    | zero => intro start c h; simp [fullLoop] at h
    | succ n ih =>
      intro start c h
      unfold fullLoop at h
      dsimp only at h
      split_ifs at h with hd
      · simp only [Prod.mk.injEq, Option.some.injEq] at h
        rw [EF.fin_sub, EF.abs_div_lt] at hd
        obtain ⟨h1, h2⟩ := hd
        rw [abs_div, div_lt_iff₀ (abs_pos.2 h1)] at h2
        refine ⟨0, by omega, h.2.symm, h.1.symm, by rw [← h.1]; exact h1, ?_⟩
        rw [← h.1]
        simp only [Function.iterate_zero, id]
        linarith
      · obtain ⟨h1, h2⟩ := Prod.mk.inj h
        obtain ⟨k, a1, a2, a3, a4, a5⟩ := ih (better start) (fullLoop better n (better start)).2 (by rw [← h1])
        exact ⟨k + 1, by omega, by omega, a3, a4, a5⟩
  obtain ⟨k, h1, h2⟩ := key _ start c h
  exact ⟨k, by omega, h2⟩

/-- C79, violation: an improvement function that reaches 0 and stays there (start included) never
succeeds, whatever the iteration limit. -/
theorem C79_violation (maxIter : ℤ) : (FullPrecision (fun x => x / 2) 0 maxIter).1 = none := by
  have key : ∀ fuel : ℕ, (fullLoop (fun x => x / 2) fuel 0).1 = none := by
    intro fuel
    induction fuel with
    | zero => rfl
    | succ n ih =>
      unfold fullLoop
      dsimp only
      rw [if_neg (by rw [EF.fin_sub, EF.abs_div_lt]; simp)]
      simpa using ih
  exact key _

end Verif.Props
