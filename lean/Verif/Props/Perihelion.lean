import Verif.Model.Perihelion
import Verif.Props.Interp

/-! Properties C56, C57 and C89: perihelion and aphelion. -/

namespace Verif.Props

open Verif.Model Verif.Model.Interp Verif.Model.Perihelion Classical

/-- The crawl keeps three equidistant times and the distances at these times. -/
def Sampled (R : ℝ → ℝ) (d : ℝ) (s : St) : Prop :=
  s.j0 = s.j1 - d ∧ s.j2 = s.j1 + d ∧ s.r0 = R s.j0 ∧ s.r1 = R s.j1 ∧ s.r2 = R s.j2

theorem sampled_step {R : ℝ → ℝ} {d : ℝ} {a : Bool} {s : St} (h : Sampled R d s) : Sampled R d (step R d a s) := by
  obtain ⟨h1, h2, h3, h4, h5⟩ := h
  unfold step
  split_ifs
  · exact ⟨by simp [h2], rfl, h4, h5, rfl⟩
  · exact ⟨rfl, by simp [h1], rfl, h3, h4⟩

theorem crawl_sampled {R : ℝ → ℝ} {d : ℝ} {a : Bool} : ∀ {fuel : ℕ} {s t : St}, Sampled R d s → crawl R d a fuel s = some t →
    Sampled R d t ∧ stop a t.r0 t.r1 t.r2
  | 0, s, t, _, h => by simp [crawl] at h
  | fuel + 1, s, t, hs, h => by
    rw [crawl] at h
    by_cases hstop : stop a s.r0 s.r1 s.r2
    · rw [if_pos hstop] at h
      injection h with h; subst h
      exact ⟨hs, hstop⟩
    · rw [if_neg hstop] at h
      exact crawl_sampled (sampled_step hs) h

theorem sampled_start (R : ℝ → ℝ) (j1 d : ℝ) : Sampled R d (start R j1 d) := ⟨rfl, rfl, rfl, rfl, rfl⟩

/-- The vertex of a parabola through three samples with the middle one strictly extreme. -/
theorem bracket_extremum {j d y0 y1 y2 : ℝ} (hd : d ≠ 0) (h : (y1 > y0 ∧ y1 > y2) ∨ (y1 < y0 ∧ y1 < y2)) :
    ∃ l, NewLen3 (j - d) (j + d) [y0, y1, y2] = .ok l ∧ ∃ jde r, l.Extremum = .ok (jde, r) ∧ |jde - j| < |d| / 2 ∧
      (y1 > y0 → y1 ≤ r) ∧ (y1 < y0 → r ≤ y1) := by
  have hne : j + d ≠ j - d := by intro e; apply hd; linarith
  refine ⟨_, if_neg hne, ?_⟩
  set c := y2 - y1 - (y1 - y0) with hc
  set s := y1 - y0 + (y2 - y1) with hs
  have hcne : c ≠ 0 := by rcases h with ⟨h1, h2⟩ | ⟨h1, h2⟩ <;> rw [hc] <;> intro e <;> linarith
  have hn : |s / (-2 * c)| < 1 / 2 := by
    rw [abs_div, div_lt_iff₀ (by positivity), abs_mul, show |(-2 : ℝ)| = 2 by norm_num]
    rcases h with ⟨h1, h2⟩ | ⟨h1, h2⟩
    · rw [abs_of_neg (a := c) (by rw [hc]; linarith), abs_lt, hs, hc]; constructor <;> linarith
    · rw [abs_of_pos (a := c) (by rw [hc]; linarith), abs_lt, hs, hc]; constructor <;> linarith
  have hn' := abs_lt.1 hn
  simp only [Len3.Extremum, Len3.y1, List.getD_cons_succ, List.getD_cons_zero]
  rw [if_neg hcne, if_neg (by rintro (e | e) <;> linarith [hn'.1, hn'.2])]
  refine ⟨_, _, rfl, ?_, ?_, ?_⟩
  · have : 0.5 * (j + d + (j - d) + (j + d - (j - d)) * (s / (-2 * c))) - j = d * (s / (-2 * c)) := by ring
    rw [this, abs_mul]
    have hd0 : 0 < |d| := abs_pos.2 hd
    nlinarith
  · intro h1
    have hcn : c < 0 := by rcases h with ⟨-, h2⟩ | ⟨h2, -⟩ <;> [(rw [hc]; linarith); linarith]
    have : s * s / (8 * c) ≤ 0 := div_nonpos_of_nonneg_of_nonpos (mul_self_nonneg s) (by linarith)
    linarith
  · intro h1
    have hcn : 0 < c := by rcases h with ⟨h2, -⟩ | ⟨-, h2⟩ <;> [linarith; (rw [hc]; linarith)]
    have : 0 ≤ s * s / (8 * c) := div_nonneg (mul_self_nonneg s) (by linarith)
    linarith

/-- C56.  For every distance function, start, step d ≠ 0 and number of rounds: if the crawl stops, the search does not panic, and it returns a time
within half a step of a time at which the sampled distance is strictly extreme among its neighbours, and a distance at least as extreme. -/
theorem C56_bracketed (R : ℝ → ℝ) (fuel : ℕ) (j1 d : ℝ) (hd : d ≠ 0) (a : Bool) :
    ap2a R fuel j1 d a = .timeout ∨
    ∃ jde r j, ap2a R fuel j1 d a = .done jde r ∧ |jde - j| < |d| / 2 ∧
      (a = true → R (j - d) < R j ∧ R (j + d) < R j ∧ R j ≤ r) ∧ (a = false → R j < R (j - d) ∧ R j < R (j + d) ∧ r ≤ R j) := by
  unfold ap2a
  cases hc : crawl R d a fuel (start R j1 d) with
  | none => exact Or.inl rfl
  | some s =>
    right
    obtain ⟨⟨h1, h2, h3, h4, h5⟩, hstop⟩ := crawl_sampled (sampled_start R j1 d) hc
    have hb : (s.r1 > s.r0 ∧ s.r1 > s.r2) ∨ (s.r1 < s.r0 ∧ s.r1 < s.r2) := by
      unfold stop at hstop; cases a
      · exact Or.inr (by simpa using hstop)
      · exact Or.inl (by simpa using hstop)
    obtain ⟨l, hl, jde, r, he, h6, h7, h8⟩ := bracket_extremum (j := s.j1) hd hb
    dsimp only
    rw [h1, h2, hl]
    dsimp only
    rw [he]
    refine ⟨jde, r, s.j1, rfl, h6, ?_, ?_⟩
    · intro ha
      unfold stop at hstop
      rw [ha] at hstop
      simp only [if_true] at hstop
      rw [h3, h4, h5, h1, h2] at hstop
      rw [h4, h3, h1] at h7
      exact ⟨hstop.1, hstop.2, h7 hstop.1⟩
    · intro ha
      unfold stop at hstop
      rw [ha] at hstop
      simp only [Bool.false_eq_true, if_false] at hstop
      rw [h3, h4, h5, h1, h2] at hstop
      rw [h4, h3, h1] at h8
      exact ⟨hstop.1, hstop.2, h8 hstop.1⟩

/-- C56.  For Neptune the more extreme of the two results is returned. -/
theorem C56_neptune (R : ℝ → ℝ) (fuel : ℕ) (y d : ℝ) (a : Bool) (f : ℝ → ℝ) (jde r : ℝ) (h : ap2 R fuel 7 y d a f = .done jde r) :
    ∃ j1 j0 r0 j2 r2, ap 7 y a f = some j1 ∧ ap2a R fuel (j1 - 5000) d a = .done j0 r0 ∧ ap2a R fuel (j1 + 5000) d a = .done j2 r2 ∧
      r = (if a then max r0 r2 else min r0 r2) ∧ ((jde, r) = (j0, r0) ∨ (jde, r) = (j2, r2)) := by
  unfold ap2 at h
  cases hap : ap 7 y a f with
  | none => rw [hap] at h; cases h
  | some j1 =>
    rw [hap] at h
    simp only [ne_eq, not_true_eq_false, if_false] at h
    cases h0 : ap2a R fuel (j1 - 5000) d a with
    | panic => rw [h0] at h; cases h
    | timeout => rw [h0] at h; cases h
    | done j0 r0 =>
      cases h2 : ap2a R fuel (j1 + 5000) d a with
      | panic => rw [h0, h2] at h; cases h
      | timeout => rw [h0, h2] at h; cases h
      | done j2 r2 =>
        rw [h0, h2] at h
        dsimp only at h
        refine ⟨j1, j0, r0, j2, r2, rfl, h0, h2, ?_⟩
        cases a
        · by_cases hr : r0 > r2
          · rw [if_neg (by simp [hr])] at h
            injection h with e1 e2; subst e1; subst e2
            exact ⟨by simp [min_eq_right hr.le], Or.inr rfl⟩
          · rw [if_pos (by simp at hr; simp [hr])] at h
            injection h with e1 e2; subst e1; subst e2
            exact ⟨by simp [min_eq_left (not_lt.1 hr)], Or.inl rfl⟩
        · by_cases hr : r0 > r2
          · rw [if_pos (by simp [hr])] at h
            injection h with e1 e2; subst e1; subst e2
            exact ⟨by simp [max_eq_left hr.le], Or.inl rfl⟩
          · rw [if_neg (by simpa using hr)] at h
            injection h with e1 e2; subst e1; subst e2
            exact ⟨by simp [max_eq_right (not_lt.1 hr)], Or.inr rfl⟩

/-- The state with the middle sample at number k of the grid. -/
noncomputable def at_ (R : ℝ → ℝ) (j1 d : ℝ) (k : ℤ) : St :=
  ⟨j1 + (k - 1) * d, j1 + k * d, j1 + (k + 1) * d, R (j1 + (k - 1) * d), R (j1 + k * d), R (j1 + (k + 1) * d)⟩

/-- "More extreme": greater for an aphelion, less for a perihelion. -/
def beats (a : Bool) (x y : ℝ) : Prop := if a then y < x else x < y

theorem crawl_right (R : ℝ → ℝ) (j1 d : ℝ) (a : Bool) (K : ℕ)
    (hup : ∀ k : ℤ, -1 ≤ k → k < K → beats a (R (j1 + (k + 1) * d)) (R (j1 + k * d))) (htop : beats a (R (j1 + K * d)) (R (j1 + (K + 1) * d))) :
    ∀ m k : ℕ, k + m = K → crawl R d a (m + 1) (at_ R j1 d k) = some (at_ R j1 d K) := by
  intro m
  induction m with
  | zero =>
    intro k hk
    obtain rfl : k = K := by omega
    rw [crawl, if_pos]
    have h1 := hup (k - 1) (by omega) (by omega)
    push_cast at h1
    rw [sub_add_cancel] at h1
    unfold stop at_; unfold beats at h1 htop
    cases a
    · simp at h1 htop ⊢; exact ⟨h1, htop⟩
    · simp at h1 htop ⊢; exact ⟨h1, htop⟩
  | succ m ih =>
    intro k hk
    have h1 := hup (k - 1) (by omega) (by omega)
    have h2 := hup k (by omega) (by omega)
    push_cast at h1 h2
    rw [sub_add_cancel] at h1
    rw [crawl, if_neg, step, if_pos]
    · have := ih (k + 1) (by omega)
      rw [← this]
      congr 1
      unfold at_
      simp only [Int.cast_natCast, Nat.cast_add, Nat.cast_one, Int.cast_add, Int.cast_one]
      congr 1 <;> ring_nf
    · unfold forward at_; unfold beats at h1 h2
      cases a
      · simp at h1 h2 ⊢; linarith
      · simp at h1 h2 ⊢; linarith
    · unfold stop at_; unfold beats at h1 h2
      cases a
      · simp at h1 h2 ⊢; intro; linarith
      · simp at h1 h2 ⊢; intro; linarith

/-- C57, the part that holds: when the samples become strictly more extreme from the one before the start up to number K ≥ 0 of the crawl direction, and the next is
strictly less extreme, the crawl stops, at number K.  (For a crawl backward take the step −d, see the next theorem.)  Missing: equal neighbouring samples, see the
violation. -/
theorem C57_terminates_forward_partial (R : ℝ → ℝ) (j1 d : ℝ) (a : Bool) (K : ℕ)
    (hup : ∀ k : ℤ, -1 ≤ k → k < K → beats a (R (j1 + (k + 1) * d)) (R (j1 + k * d))) (htop : beats a (R (j1 + K * d)) (R (j1 + (K + 1) * d))) :
    ∀ fuel, K < fuel → ap2a R fuel j1 d a ≠ .timeout := by
  intro fuel hf
  have h := crawl_right R j1 d a K hup htop K 0 (by omega)
  have mono : ∀ (n m : ℕ) (s t : St), crawl R d a n s = some t → n ≤ m → crawl R d a m s = some t := by
    intro n
    induction n with
    | zero => intro m s t h; simp [crawl] at h
    | succ n ih =>
      intro m s t h hm
      obtain ⟨m', rfl⟩ : ∃ m', m = m' + 1 := ⟨m - 1, by omega⟩
      rw [crawl] at h ⊢
      by_cases hs : stop a s.r0 s.r1 s.r2
      · rw [if_pos hs] at h ⊢; exact h
      · rw [if_neg hs] at h ⊢; exact ih m' _ t h (by omega)
  have h' := mono _ fuel _ _ h hf
  have e : at_ R j1 d (0 : ℕ) = start R j1 d := by unfold at_ start; simp [sub_eq_add_neg]
  rw [e] at h'
  unfold ap2a
  rw [h']
  dsimp only
  split
  · simp
  · split <;> simp

theorem crawl_left (R : ℝ → ℝ) (j1 d : ℝ) (a : Bool) (K : ℕ)
    (hup : ∀ k : ℤ, -1 ≤ k → k < K → beats a (R (j1 - (k + 1) * d)) (R (j1 - k * d))) (htop : beats a (R (j1 - K * d)) (R (j1 - (K + 1) * d))) :
    ∀ m k : ℕ, k + m = K → crawl R d a (m + 1) (at_ R j1 d (-k)) = some (at_ R j1 d (-K)) := by
  have hneg : ∀ x : ℝ, j1 + -x * d = j1 - x * d := fun x => by ring
  have hp : ∀ x : ℝ, j1 + (-x - 1) * d = j1 - (x + 1) * d := fun x => by ring
  have hm : ∀ x : ℝ, j1 + (-x + 1) * d = j1 - (x - 1) * d := fun x => by ring
  intro m
  induction m with
  | zero =>
    intro k hk
    obtain rfl : k = K := by omega
    rw [crawl, if_pos]
    have h1 := hup (k - 1) (by omega) (by omega)
    push_cast at h1
    rw [sub_add_cancel] at h1
    unfold stop at_; unfold beats at h1 htop
    simp only [Int.cast_neg, Int.cast_natCast, hneg, hp, hm]
    cases a
    · simp at h1 htop ⊢; exact ⟨htop, h1⟩
    · simp at h1 htop ⊢; exact ⟨htop, h1⟩
  | succ m ih =>
    intro k hk
    have h1 := hup (k - 1) (by omega) (by omega)
    have h2 := hup k (by omega) (by omega)
    push_cast at h1 h2
    rw [sub_add_cancel] at h1
    rw [crawl, if_neg, step, if_neg]
    · have := ih (k + 1) (by omega)
      rw [← this]
      congr 1
      unfold at_
      simp only [Int.cast_natCast, Nat.cast_add, Nat.cast_one, Int.cast_add, Int.cast_one, Int.cast_neg]
      congr 1 <;> ring_nf
    · unfold forward at_; unfold beats at h1 h2
      simp only [Int.cast_neg, Int.cast_natCast, hp, hm]
      cases a
      · simp at h1 h2 ⊢; linarith
      · simp at h1 h2 ⊢; linarith
    · unfold stop at_; unfold beats at h1 h2
      simp only [Int.cast_neg, Int.cast_natCast, hneg, hp, hm]
      cases a
      · simp at h1 h2 ⊢; intro; linarith
      · simp at h1 h2 ⊢; intro; linarith

/-- C57, the part that holds, backward. -/
theorem C57_terminates_backward_partial (R : ℝ → ℝ) (j1 d : ℝ) (a : Bool) (K : ℕ)
    (hup : ∀ k : ℤ, -1 ≤ k → k < K → beats a (R (j1 - (k + 1) * d)) (R (j1 - k * d))) (htop : beats a (R (j1 - K * d)) (R (j1 - (K + 1) * d))) :
    ∃ fuel, ap2a R fuel j1 d a ≠ .timeout := by
  have h := crawl_left R j1 d a K hup htop K 0 (by omega)
  have e : at_ R j1 d (-(0 : ℕ)) = start R j1 d := by unfold at_ start; simp [sub_eq_add_neg]
  rw [e] at h
  refine ⟨K + 1, ?_⟩
  unfold ap2a
  rw [h]
  dsimp only
  split
  · simp
  · split <;> simp

/-- C57.  A distance function with a maximum at jde 1/2, rising before and falling after: started at 0 with step 1 (two equal neighbouring samples at 0 and 1), the search for
the aphelion never ends. -/
theorem C57_plateau_violation : ∀ fuel, ap2a (fun j => -(j - 1 / 2) ^ 2) fuel 0 1 true = .timeout := by
  have key : ∀ fuel, crawl (fun j => -(j - 1 / 2) ^ 2) 1 true fuel ⟨-1, 0, 1, -(9 / 4), -(1 / 4), -(1 / 4)⟩ = none ∧
      crawl (fun j => -(j - 1 / 2) ^ 2) 1 true fuel ⟨0, 1, 2, -(1 / 4), -(1 / 4), -(9 / 4)⟩ = none := by
    intro fuel
    induction fuel with
    | zero => exact ⟨rfl, rfl⟩
    | succ f ih =>
      constructor
      · rw [crawl, if_neg (by unfold stop; norm_num), step, if_pos (by unfold forward; norm_num)]
        convert ih.2 using 2
        norm_num
      · rw [crawl, if_neg (by unfold stop; norm_num), step, if_neg (by unfold forward; norm_num)]
        convert ih.1 using 2
        norm_num
  intro fuel
  unfold ap2a
  have e : start (fun j => -(j - 1 / 2) ^ 2) 0 1 = ⟨-1, 0, 1, -(9 / 4), -(1 / 4), -(1 / 4)⟩ := by
    unfold start; norm_num
  rw [e, (key fuel).1]

/-- C57.  A case meeting the hypotheses of the partial theorem: the same function from start 1/4 − 3 (K = 3). -/
theorem C57_example : ∀ fuel, 3 < fuel → ap2a (fun j => -(j - 1 / 2) ^ 2) fuel (1 / 4 - 3) 1 true ≠ .timeout := by
  apply C57_terminates_forward_partial _ _ _ _ 3
  · intro k h1 h2
    unfold beats
    have : (k : ℝ) ≤ 2 := by exact_mod_cast (by omega : k ≤ 2)
    simp only [if_true]
    nlinarith
  · unfold beats; norm_num

/-- C89.  The number of the event is the nearest integer (perihelion) or the nearest integer plus one half (aphelion). -/
theorem C89_nearest_number (x : ℝ) :
    (∃ n : ℤ, pf x = n) ∧ |pf x - x| ≤ 1 / 2 ∧ (∃ n : ℤ, af x = n + 1 / 2) ∧ |af x - x| ≤ 1 / 2 := by
  refine ⟨⟨_, rfl⟩, ?_, ⟨⌊x⌋, by unfold af; norm_num⟩, ?_⟩
  · unfold pf
    have h1 := Int.floor_le (x + 0.5)
    have h2 := Int.lt_floor_add_one (x + 0.5)
    rw [abs_le]; constructor <;> linarith
  · unfold af
    have h1 := Int.floor_le x
    have h2 := Int.lt_floor_add_one x
    rw [abs_le]; constructor <;> linarith

/-- C89.  Every planet number (Mercury 0 … Neptune 7, the barycentre 8) has a result; the barycentre is the Earth without the periodic terms. -/
theorem C89_defined (p : ℕ) (y : ℝ) (hp : p ≤ 8) : (∃ j, Perihelion p y = some j) ∧ ∃ j, Aphelion p y = some j := by
  interval_cases p <;> simp [Perihelion, Aphelion, ap, apK, ka, coef, Horner]

/-- The bound on the periodic terms of the Earth: the sum of the amplitudes. -/
theorem earth_terms (a : Bool) (k j : ℝ) :
    |(List.zip (if a then ea else ep) ec).foldl (fun j t => j + t.1 * Real.sin ((t.2.1 + t.2.2 * k) * Real.pi / 180)) j - j| ≤ 1.54 := by
  have hs := fun x : ℝ => abs_le.1 (Real.abs_sin_le_one x)
  cases a
  · simp only [ep, ec, Bool.false_eq_true, if_false, List.zip_cons_cons, List.zip_nil_right, List.foldl_cons, List.foldl_nil]
    have h1 := hs ((328.41 + 132.788585 * k) * Real.pi / 180)
    have h2 := hs ((316.13 + 584.903153 * k) * Real.pi / 180)
    have h3 := hs ((346.2 + 450.380738 * k) * Real.pi / 180)
    have h4 := hs ((136.95 + 659.306737 * k) * Real.pi / 180)
    have h5 := hs ((249.52 + 329.653368 * k) * Real.pi / 180)
    rw [abs_le]; constructor <;> norm_num at * <;> linarith
  · simp only [ea, ec, if_true, List.zip_cons_cons, List.zip_nil_right, List.foldl_cons, List.foldl_nil]
    have h1 := hs ((328.41 + 132.788585 * k) * Real.pi / 180)
    have h2 := hs ((316.13 + 584.903153 * k) * Real.pi / 180)
    have h3 := hs ((346.2 + 450.380738 * k) * Real.pi / 180)
    have h4 := hs ((136.95 + 659.306737 * k) * Real.pi / 180)
    have h5 := hs ((249.52 + 329.653368 * k) * Real.pi / 180)
    rw [abs_le]; constructor <;> norm_num at * <;> linarith

/-- C89.  Perihelia and aphelia alternate: the event half a revolution later is later, for a hundred thousand revolutions either side of the epoch. -/
theorem C89_alternate (p : ℕ) (hp : p ≤ 8) (k : ℝ) (hk : |k| ≤ 100000) (a b : Bool) (j j' : ℝ)
    (h : apK p k a = some j) (h' : apK p (k + 1 / 2) b = some j') : j < j' := by
  rw [abs_le] at hk
  have e1 := earth_terms a k
  have e2 := earth_terms b (k + 1 / 2)
  by_cases h2 : p = 2
  · subst h2
    have e : ∀ k a, apK 2 k a = some ((List.zip (if a then ea else ep) ec).foldl
        (fun j t => j + t.1 * Real.sin ((t.2.1 + t.2.2 * k) * Real.pi / 180)) ((0.0000000156 * k + 365.2596358) * k + 2451547.507)) :=
      fun _ _ => rfl
    rw [e] at h h'
    injection h with h
    injection h' with h'
    have e1 := abs_le.1 (e1 ((0.0000000156 * k + 365.2596358) * k + 2451547.507))
    have e2 := abs_le.1 (e2 ((0.0000000156 * (k + 1 / 2) + 365.2596358) * (k + 1 / 2) + 2451547.507))
    rw [h] at e1
    rw [h'] at e2
    nlinarith [e1.1, e1.2, e2.1, e2.2, hk.1, hk.2]
  interval_cases p
  all_goals simp [apK, coef, Horner] at h h' h2
  all_goals
    subst h h'
    norm_num
  all_goals nlinarith

end Verif.Props
