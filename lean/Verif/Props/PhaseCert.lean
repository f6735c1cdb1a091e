import Verif.Lemmas.LaurentShift
import Verif.Props.MoonArgs
/-
The series of the phases of the Moon substituted in the series of its longitude: certificates for C170.
-/
namespace Verif.Props

open Real Verif.Spec Verif.Go Verif.Model Verif.Lemmas Verif.Lemmas.PolyQ Verif.Lemmas.Laurent

/-- A row of the table of the Moon as a periodic term, in units of 10⁻⁶ degree. -/
def rowT (r : Moonposition.Row) : Tm := ⟨r.D, r.M, r.M', r.F, r.M.natAbs, r.c⟩

/-- Longitude of the Moon less that of the Sun. -/
def rowsL : List Tm := Moonposition.ta.map rowT ++ [⟨0, 1, 0, 0, 1, -1914602⟩, ⟨0, 2, 0, 0, 2, -19993⟩, ⟨0, 3, 0, 0, 0, -289⟩]

/-- The main ones. -/
def big (k : ℕ) (t : Tm) : Bool := Nat.ble k t.c.natAbs
def small (k : ℕ) (t : Tm) : Bool := !big k t

/-- Rates of the arguments in 10⁻⁷ degree per century. -/
def wq : Rate := ⟨4452671114034, 359990502909, 4771988675055, 4832020175233⟩

def cN : ℤ := 10 ^ 50
def r0 : ℤ := 12190749114420533880903490759753593429158110882956878
def r1 : ℤ := 23892255331886784078332953076279
def r2 : ℤ := 2854199324220

/-- r0 C + N L + r1 C L' + r2 C² L'' / 2, for C in units of 10⁻⁵ day, with the first factors doubled as sums of exponentials. -/
def poly (col : Tm → Tm) (C : List Tm) : List Tm :=
  let cc (p : List Tm) := sort (p.map col)
  let B := cc (odd C)
  let Bm := cc (odd (C.filter (big 30)))
  let A0 := cc (odd rowsL)
  let A1 := cc (even (rowsL.map (Tm.w1 wq)))
  let A2 := cc (odd ((rowsL.filter (big 2000)).map (Tm.w2 wq)))
  merge (smul r0 B) (merge (smul cN A0) (merge (smul r1 (cc (mul A1 B))) (smul r2 (cc (mul A2 (cc (mul Bm Bm)))))))

theorem poly_ev (col : Tm → Tm) (C : List Tm) (x : Pt) (h : ∀ t, (col t).ev x = t.ev x) :
    ev x (poly col C) = 2 * Complex.I * ((r0 * sinS x C + cN * sinS x rowsL + 2 * r1 * (sinS x C * cosS x (rowsL.map (Tm.w1 wq))) -
      4 * r2 * (sinS x (C.filter (big 30)) ^ 2 * sinS x ((rowsL.filter (big 2000)).map (Tm.w2 wq))) : ℝ) : ℂ) := by
  unfold poly
  simp only [ev_merge, ev_smul, ev_mul, ev_sort, ev_map x col h, ev_odd, ev_even]
  push_cast
  have hI : Complex.I ^ 2 = -1 := Complex.I_sq
  linear_combination 8 * (r2 : ℂ) * Complex.I * (sinS x (C.filter (big 30)) : ℂ) ^ 2 * (sinS x ((rowsL.filter (big 2000)).map (Tm.w2 wq)) : ℂ) * hI

theorem poly_bound (col : Tm → Tm) (C : List Tm) (x : Pt) (h : ∀ t, (col t).ev x = t.ev x) (hE : |x.E - 1| ≤ 0.026) (a b : ℕ)
    (ha : l1 (one (poly col C)) ≤ a) (hb : le (poly col C) ≤ b) :
    |r0 * sinS x C + cN * sinS x rowsL + 2 * r1 * (sinS x C * cosS x (rowsL.map (Tm.w1 wq))) -
      4 * r2 * (sinS x (C.filter (big 30)) ^ 2 * sinS x ((rowsL.filter (big 2000)).map (Tm.w2 wq)))| ≤ ((a : ℝ) + b * 0.026) / 2 := by
  have h1 := ev_bound x (poly col C) 0.026 hE (by norm_num)
  rw [poly_ev col C x h, norm_mul, Complex.norm_real, Real.norm_eq_abs, norm_mul, Complex.norm_I, Complex.norm_two] at h1
  have ha' : (l1 (one (poly col C)) : ℝ) ≤ a := by exact_mod_cast ha
  have hb' : (le (poly col C) : ℝ) ≤ b := by exact_mod_cast hb
  have hb'' := mul_le_mul_of_nonneg_right hb' (by norm_num : (0 : ℝ) ≤ 0.026)
  rw [le_div_iff₀ (by norm_num)]
  linarith

theorem sinS_filter (x : Pt) (k : ℕ) (g : Tm → Tm) (p : List Tm) :
    sinS x (p.map g) = sinS x ((p.filter (big k)).map g) + sinS x ((p.filter (small k)).map g) := by
  induction p with
  | nil => simp [sinS]
  | cons t p ih =>
    rw [List.map_cons, sinS_cons, ih]
    by_cases h : big k t = true
    · have h' : ¬ small k t = true := by simp [small, h]
      rw [List.filter_cons_of_pos h, List.filter_cons_of_neg h', List.map_cons, sinS_cons]; ring
    · have h' : small k t = true := by simp [small, h]
      rw [List.filter_cons_of_neg h, List.filter_cons_of_pos h', List.map_cons, sinS_cons]; ring

theorem n_w1 : Laurent.l1 (rowsL.map (Tm.w1 wq)) ≤ 48149323155269083505 := by decide +kernel
theorem n_w2 : Laurent.l1 (rowsL.map (Tm.w2 wq)) ≤ 279394420236376439523984400878433 := by decide +kernel
theorem n_w2b : Laurent.l1 ((rowsL.filter (big 2000)).map (Tm.w2 wq)) ≤ 276945703147675564372053785769030 := by decide +kernel
theorem n_w2s : Laurent.l1 ((rowsL.filter (small 2000)).map (Tm.w2 wq)) ≤ 2448717088700875151930615109403 := by decide +kernel
theorem n_w3 : Laurent.l1 (rowsL.map (Tm.w3 wq)) ≤ 1923615185383204533557750180814549186417749243 := by decide +kernel
theorem n_wt : (rowsL.all fun t => decide ((t.wt wq).natAbs ≤ 23221308253233)) = true := by decide +kernel
theorem n_e : emax2 rowsL = true := by decide +kernel

theorem emax2_filter {p : List Tm} (h : emax2 p = true) (f : Tm → Bool) : emax2 (p.filter f) = true := by
  unfold emax2 at *
  rw [List.all_eq_true] at *
  intro t ht
  exact h t (List.mem_of_mem_filter ht)
theorem emax2_w1 {p : List Tm} (h : emax2 p = true) (w : Rate) : emax2 (p.map (Tm.w1 w)) = true := by
  unfold emax2 at *; rw [List.all_map]; exact h
theorem emax2_w2 {p : List Tm} (h : emax2 p = true) (w : Rate) : emax2 (p.map (Tm.w2 w)) = true := by
  unfold emax2 at *; rw [List.all_map]; exact h

/-- From radians and days to the units of the tables. -/
noncomputable def kap : ℝ := 1e-12 * deg / 36525
theorem kap_num : 4.778451e-19 ≤ kap ∧ kap ≤ 4.778452e-19 := by
  obtain ⟨h1, h2⟩ := deg_num
  unfold kap
  norm_num at *
  constructor <;> linarith

theorem k1_err : |kap - 2 * r1 / cN| ≤ 1e-28 := by
  have h1 := Real.pi_gt_d20
  have h2 := Real.pi_lt_d20
  unfold kap deg r1 cN
  rw [abs_le]
  norm_num at *
  constructor <;> linarith
theorem k2_err : |kap ^ 2 / 2 - 4 * r2 / cN| ≤ 1e-46 := by
  have h1 := k1_err
  have h3 := kap_num
  have e : kap ^ 2 / 2 - 4 * r2 / cN = (kap - 2 * r1 / cN) * (kap + 2 * r1 / cN) / 2 + ((2 * r1 / cN) ^ 2 / 2 - 4 * r2 / cN) := by ring
  have h4 : |((2 * r1 / cN : ℝ)) ^ 2 / 2 - 4 * r2 / cN| ≤ 1e-47 := by
    unfold r1 r2 cN; rw [abs_le]; norm_num
  have h5 : |kap + 2 * r1 / cN| ≤ 1e-18 := by
    unfold r1 cN; rw [abs_le]; norm_num at *; constructor <;> linarith
  rw [e]
  refine (abs_add_le _ _).trans ?_
  rw [abs_div, abs_mul, abs_two]
  have := mul_le_mul h1 h5 (abs_nonneg _) (by norm_num)
  norm_num at this h4 ⊢
  linarith
theorem k0_err : |445267.11140421e6 * 1e-5 / 36525 - (r0 : ℝ) / cN| ≤ 1e-15 := by
  unfold r0 cN; rw [abs_le]; norm_num

/-- The bound of the departure from the phase, in 10⁻⁶ degree. -/
noncomputable def dep (n s a b : ℕ) (η : ℝ) : ℝ :=
  1.061 * (4.778452e-14 * η) * 48149323155269083505 + 445267.11140421e6 / 36525 * η +
  1.061 * (5 / 24) * (4.778452e-19 * (1.061 * n)) ^ 3 * 1923615185383204533557750180814549186417749243 +
  (4.778452e-19 * (1.061 * s) * (4.778452e-19 * (1.061 * (n + n))) * (1.061 * 279394420236376439523984400878433) +
    (4.778452e-19 * (1.061 * n)) ^ 2 * (1.061 * 2448717088700875151930615109403)) / 2 + ((a : ℝ) + b * 0.026) / 2 / 1e50 + 1

/-- The pieces put together. -/
theorem combine (R c Cs Cm Cr Sh Sb S0 S1 S2 S2b S2s κ ρ q0 q1 q2 P : ℝ) (A1 A2 A3 A4 nC nR n1 n2 n2b n2s K ε0 ε1 ε2 : ℝ)
    (h1 : |R * (c - 1e-5 * Cs)| ≤ A1) (h2 : |Sh - Sb| ≤ A2) (h3 : |Sb - (S0 + κ * Cs * S1 - (κ * Cs) ^ 2 / 2 * S2)| ≤ A3)
    (h4 : |q0 * Cs + S0 + q1 * (Cs * S1) - q2 * (Cm ^ 2 * S2b)| ≤ A4) (hρ : ρ = R * 1e-5) (hC : Cs = Cm + Cr) (hS : S2 = S2b + S2s)
    (bC : |Cs| ≤ nC) (bM : |Cm| ≤ nC) (bR : |Cr| ≤ nR) (b1 : |S1| ≤ n1) (b2 : |S2| ≤ n2) (b2b : |S2b| ≤ n2b) (b2s : |S2s| ≤ n2s) (hκ : |κ| ≤ K)
    (e0 : |ρ - q0| ≤ ε0) (e1 : |κ - q1| ≤ ε1) (e2 : |κ ^ 2 / 2 - q2| ≤ ε2) :
    |R * c + Sh| ≤ A1 + A2 + A3 + A4 + (K * nR * (K * (nC + nC)) * n2 + (K * nC) ^ 2 * n2s) / 2 + ε0 * nC + ε1 * (nC * n1) + ε2 * (nC ^ 2 * n2b) := by
  have e : R * c + Sh = R * (c - 1e-5 * Cs) + (Sh - Sb) + (Sb - (S0 + κ * Cs * S1 - (κ * Cs) ^ 2 / 2 * S2)) +
      (q0 * Cs + S0 + q1 * (Cs * S1) - q2 * (Cm ^ 2 * S2b)) - (κ * Cr * (κ * (Cs + Cm)) * S2 + (κ * Cm) ^ 2 * S2s) / 2 +
      (ρ - q0) * Cs + (κ - q1) * (Cs * S1) - (κ ^ 2 / 2 - q2) * (Cm ^ 2 * S2b) := by
    rw [hρ, hS, hC]; ring
  have k1 : |κ * Cr * (κ * (Cs + Cm)) * S2| ≤ K * nR * (K * (nC + nC)) * n2 := by
    rw [abs_mul, abs_mul, abs_mul, abs_mul]
    have hm : |Cs + Cm| ≤ nC + nC := (abs_add_le _ _).trans (add_le_add bC bM)
    have q0 := (abs_nonneg _).trans hκ
    have q1 := (abs_nonneg _).trans bR
    have q2 := (abs_nonneg _).trans bC
    gcongr
  have k2 : |(κ * Cm) ^ 2 * S2s| ≤ (K * nC) ^ 2 * n2s := by
    rw [abs_mul, abs_pow, abs_mul]
    have q0 := (abs_nonneg _).trans hκ
    have q2 := (abs_nonneg _).trans bC
    gcongr
  have k3 : |(κ * Cr * (κ * (Cs + Cm)) * S2 + (κ * Cm) ^ 2 * S2s) / 2| ≤ (K * nR * (K * (nC + nC)) * n2 + (K * nC) ^ 2 * n2s) / 2 := by
    rw [abs_div, abs_two]
    exact (div_le_div_iff_of_pos_right (by norm_num)).2 ((abs_add_le _ _).trans (add_le_add k1 k2))
  have k4 : |(ρ - q0) * Cs| ≤ ε0 * nC := by
    rw [abs_mul]; exact mul_le_mul e0 bC (abs_nonneg _) ((abs_nonneg _).trans e0)
  have k5 : |(κ - q1) * (Cs * S1)| ≤ ε1 * (nC * n1) := by
    rw [abs_mul, abs_mul]
    have q0 := (abs_nonneg _).trans e1
    have q2 := (abs_nonneg _).trans bC
    gcongr
  have k6 : |(κ ^ 2 / 2 - q2) * (Cm ^ 2 * S2b)| ≤ ε2 * (nC ^ 2 * n2b) := by
    rw [abs_mul, abs_mul, abs_pow]
    have q0 := (abs_nonneg _).trans e2
    have q2 := (abs_nonneg _).trans bC
    gcongr
  rw [e]
  generalize R * (c - 1e-5 * Cs) = u1 at *
  generalize Sh - Sb = u2 at *
  generalize Sb - (S0 + κ * Cs * S1 - (κ * Cs) ^ 2 / 2 * S2) = u3 at *
  generalize q0 * Cs + S0 + q1 * (Cs * S1) - q2 * (Cm ^ 2 * S2b) = u4 at *
  generalize (κ * Cr * (κ * (Cs + Cm)) * S2 + (κ * Cm) ^ 2 * S2s) / 2 = u5 at *
  generalize (ρ - q0) * Cs = u6 at *
  generalize (κ - q1) * (Cs * S1) = u7 at *
  generalize (κ ^ 2 / 2 - q2) * (Cm ^ 2 * S2b) = u8 at *
  rw [abs_le] at *
  constructor <;> linarith [h1.1, h1.2, h2.1, h2.2, h3.1, h3.2, h4.1, h4.2, k3.1, k3.2, k4.1, k4.2, k5.1, k5.2, k6.1, k6.2]

theorem core (col : Tm → Tm) (C : List Tm) (x : Pt) (hcol : ∀ t, (col t).ev x = t.ev x) (hE : |x.E - 1| ≤ 0.026) (n s a b : ℕ)
    (hn : Laurent.l1 C ≤ n) (hnb : Laurent.l1 (C.filter (big 30)) ≤ n) (hs : Laurent.l1 (C.filter (small 30)) ≤ s) (he : emax2 C = true) (hn' : n ≤ 84500)
    (ha : Laurent.l1 (one (poly col C)) ≤ a) (hb : le (poly col C) ≤ b) (c η : ℝ) (hc : |c - 1e-5 * sinS x C| ≤ η) :
    |445267.11140421e6 * c / 36525 + sinS (x.shift wq (1e-7 * deg * c / 36525)) rowsL| ≤ dep n s a b η := by
  have hE3 : |x.E| ≤ 1.03 := by
    rw [abs_le] at *
    norm_num at *
    constructor <;> linarith
  obtain ⟨kl, ku⟩ := kap_num
  have k0 : 0 ≤ kap := by norm_num at kl; linarith
  have hN : (n : ℝ) ≤ 84500 := by exact_mod_cast hn'
  have hk : |kap| ≤ 4.778452e-19 := by rw [abs_of_nonneg k0]; exact ku
  -- sizes
  have b1 : |sinS x C| ≤ 1.061 * n := (sinS_abs x C hE3 he).trans (by gcongr)
  have b2 : |sinS x (C.filter (big 30))| ≤ 1.061 * n := (sinS_abs x _ hE3 (emax2_filter he _)).trans (by gcongr)
  have b3 : |sinS x (C.filter (small 30))| ≤ 1.061 * s := (sinS_abs x _ hE3 (emax2_filter he _)).trans (by gcongr)
  have b4 : |sinS x (rowsL.map (Tm.w2 wq))| ≤ 1.061 * 279394420236376439523984400878433 :=
    (sinS_abs x _ hE3 (emax2_w2 n_e _)).trans (by have := n_w2; gcongr; exact_mod_cast this)
  have b5 : |sinS x ((rowsL.filter (small 2000)).map (Tm.w2 wq))| ≤ 1.061 * 2448717088700875151930615109403 :=
    (sinS_abs x _ hE3 (emax2_w2 (emax2_filter n_e _) _)).trans (by have := n_w2s; gcongr; exact_mod_cast this)
  have b6 : |sinS x ((rowsL.filter (big 2000)).map (Tm.w2 wq))| ≤ 1.061 * 276945703147675564372053785769030 :=
    (sinS_abs x _ hE3 (emax2_w2 (emax2_filter n_e _) _)).trans (by have := n_w2b; gcongr; exact_mod_cast this)
  have b7 : |cosS x (rowsL.map (Tm.w1 wq))| ≤ 1.061 * 48149323155269083505 :=
    (cosS_abs x _ hE3 (emax2_w1 n_e _)).trans (by have := n_w1; gcongr; exact_mod_cast this)
  -- the shift
  have e1 : 1e-7 * deg * c / 36525 - kap * sinS x C = kap * 1e5 * (c - 1e-5 * sinS x C) := by unfold kap; ring
  have s1 := shift_lip x wq (1e-7 * deg * c / 36525) (kap * sinS x C) rowsL hE3 n_e
  have s2 : |1e-7 * deg * c / 36525 - kap * sinS x C| ≤ 4.778452e-14 * η := by
    rw [e1, abs_mul, abs_of_nonneg (by positivity)]
    refine mul_le_mul (by norm_num at *; linarith) hc (abs_nonneg _) (by norm_num)
  have s3 : 1.061 * |1e-7 * deg * c / 36525 - kap * sinS x C| * (Laurent.l1 (rowsL.map (Tm.w1 wq)) : ℝ) ≤ 1.061 * (4.778452e-14 * η) * 48149323155269083505 := by
    have := n_w1
    have hη : 0 ≤ η := (abs_nonneg _).trans hc
    gcongr
    exact_mod_cast this
  have y1 : |kap * sinS x C| ≤ 4.778452e-19 * (1.061 * n) := by
    rw [abs_mul, abs_of_nonneg k0]
    exact mul_le_mul ku b1 (abs_nonneg _) (by norm_num)
  -- Taylor
  have t1 := taylor_sum x wq (kap * sinS x C) rowsL hE3 n_e (by
    intro t ht
    have h1 := List.all_eq_true.1 n_wt t ht
    rw [decide_eq_true_eq] at h1
    have h2 : |(t.wt wq : ℝ)| ≤ 23221308253233 := by rw [← natAbs_real]; exact_mod_cast h1
    rw [abs_mul]
    refine (mul_le_mul h2 y1 (abs_nonneg _) (by norm_num)).trans ?_
    have h3 : (23221308253233 : ℝ) * (4.778452e-19 * (1.061 * n)) ≤ 23221308253233 * (4.778452e-19 * (1.061 * 84500)) := by gcongr
    exact h3.trans (by norm_num))
  have t2 : 1.061 * (5 / 24) * |kap * sinS x C| ^ 3 * (Laurent.l1 (rowsL.map (Tm.w3 wq)) : ℝ) ≤
      1.061 * (5 / 24) * (4.778452e-19 * (1.061 * n)) ^ 3 * 1923615185383204533557750180814549186417749243 := by
    have := n_w3
    gcongr
    exact_mod_cast this
  have p1 := poly_bound col C x hcol hE a b ha hb
  have f1 := sinS_filter x 30 id C
  rw [List.map_id, List.map_id, List.map_id] at f1
  have f2 := sinS_filter x 2000 (Tm.w2 wq) rowsL
  have hcN : (cN : ℝ) = 1e50 := by unfold cN; norm_num
  have hp : |(r0 : ℝ) / cN * sinS x C + sinS x rowsL + 2 * r1 / cN * (sinS x C * cosS x (rowsL.map (Tm.w1 wq))) -
      4 * r2 / cN * (sinS x (C.filter (big 30)) ^ 2 * sinS x ((rowsL.filter (big 2000)).map (Tm.w2 wq)))| ≤ ((a : ℝ) + b * 0.026) / 2 / 1e50 := by
    have hpos : (0 : ℝ) < cN := by rw [hcN]; norm_num
    rw [show (r0 : ℝ) / cN * sinS x C + sinS x rowsL + 2 * r1 / cN * (sinS x C * cosS x (rowsL.map (Tm.w1 wq))) -
      4 * r2 / cN * (sinS x (C.filter (big 30)) ^ 2 * sinS x ((rowsL.filter (big 2000)).map (Tm.w2 wq))) =
      (r0 * sinS x C + cN * sinS x rowsL + 2 * r1 * (sinS x C * cosS x (rowsL.map (Tm.w1 wq))) -
      4 * r2 * (sinS x (C.filter (big 30)) ^ 2 * sinS x ((rowsL.filter (big 2000)).map (Tm.w2 wq)))) / cN by field_simp, abs_div, abs_of_pos hpos, hcN]
    exact (div_le_div_iff_of_pos_right (by norm_num)).2 (hcN ▸ p1)
  have hR : |445267.11140421e6 / 36525 * (c - 1e-5 * sinS x C)| ≤ 445267.11140421e6 / 36525 * η := by
    rw [abs_mul, abs_of_pos (by norm_num)]
    exact mul_le_mul_of_nonneg_left hc (by norm_num)
  have key := combine (445267.11140421e6 / 36525) c (sinS x C) _ _ _ _ (sinS x rowsL) _ _ _ _ kap (445267.11140421e6 * 1e-5 / 36525) _ _ _ 0
    _ _ _ _ _ _ _ _ _ _ _ _ _ _ hR (s1.trans s3) (t1.trans t2) hp (by ring) f1 f2 b1 b2 b3 b7 b4 b6 b5 hk k0_err k1_err k2_err
  rw [show 445267.11140421e6 * c / 36525 = 445267.11140421e6 / 36525 * c by ring]
  refine key.trans ?_
  unfold dep
  clear p1 hp f1 f2 key
  have z1 : (1e-15 : ℝ) * (1.061 * n) ≤ 1e-15 * (1.061 * 84500) := by gcongr
  have z2 : (1e-28 : ℝ) * (1.061 * n * (1.061 * 48149323155269083505)) ≤ 1e-28 * (1.061 * 84500 * (1.061 * 48149323155269083505)) := by gcongr
  have z3 : (1e-46 : ℝ) * ((1.061 * n) ^ 2 * (1.061 * 276945703147675564372053785769030)) ≤ 1e-46 * ((1.061 * 84500) ^ 2 * (1.061 * 276945703147675564372053785769030)) := by gcongr
  have z4 : (1e-15 : ℝ) * (1.061 * 84500) + 1e-28 * (1.061 * 84500 * (1.061 * 48149323155269083505)) +
    1e-46 * ((1.061 * 84500) ^ 2 * (1.061 * 276945703147675564372053785769030)) ≤ 1 := by norm_num
  have hz := (add_le_add (add_le_add z1 z2) z3).trans z4
  refine le_trans (le_of_eq ?_) (add_le_add le_rfl hz)
  ring

/-! The corrections of the phases in units of 10⁻⁵ day -/

def newC : List Tm := [⟨0,0,1,0,0,-40720⟩,⟨0,1,0,0,1,17241⟩,⟨0,0,2,0,0,1608⟩,⟨0,0,0,2,0,1039⟩,⟨0,-1,1,0,1,739⟩,⟨0,1,1,0,1,-514⟩,⟨0,2,0,0,2,208⟩,⟨0,0,1,-2,0,-111⟩,⟨0,0,1,2,0,-57⟩,⟨0,1,2,0,1,56⟩,⟨0,0,3,0,0,-42⟩,⟨0,1,0,2,1,42⟩,⟨0,1,0,-2,1,38⟩,⟨0,-1,2,0,1,-24⟩,⟨0,2,1,0,0,-7⟩,⟨0,0,2,-2,0,4⟩,⟨0,3,0,0,0,4⟩,⟨0,1,1,-2,0,3⟩,⟨0,0,2,2,0,3⟩,⟨0,1,1,2,0,-3⟩,⟨0,-1,1,2,0,3⟩,⟨0,-1,1,-2,0,-2⟩,⟨0,1,3,0,0,-2⟩,⟨0,0,4,0,0,2⟩]
def fullC : List Tm := [⟨0,0,1,0,0,-40614⟩,⟨0,1,0,0,1,17302⟩,⟨0,0,2,0,0,1614⟩,⟨0,0,0,2,0,1043⟩,⟨0,-1,1,0,1,734⟩,⟨0,1,1,0,1,-515⟩,⟨0,2,0,0,2,209⟩,⟨0,0,1,-2,0,-111⟩,⟨0,0,1,2,0,-57⟩,⟨0,1,2,0,1,56⟩,⟨0,0,3,0,0,-42⟩,⟨0,1,0,2,1,42⟩,⟨0,1,0,-2,1,38⟩,⟨0,-1,2,0,1,-24⟩,⟨0,2,1,0,0,-7⟩,⟨0,0,2,-2,0,4⟩,⟨0,3,0,0,0,4⟩,⟨0,1,1,-2,0,3⟩,⟨0,0,2,2,0,3⟩,⟨0,1,1,2,0,-3⟩,⟨0,-1,1,2,0,3⟩,⟨0,-1,1,-2,0,-2⟩,⟨0,1,3,0,0,-2⟩,⟨0,0,4,0,0,2⟩]
def quarterC : List Tm := [⟨0,0,1,0,0,-62801⟩,⟨0,1,0,0,1,17172⟩,⟨0,1,1,0,1,-1183⟩,⟨0,0,2,0,0,862⟩,⟨0,0,0,2,0,804⟩,⟨0,-1,1,0,1,454⟩,⟨0,2,0,0,2,204⟩,⟨0,0,1,-2,0,-180⟩,⟨0,0,1,2,0,-70⟩,⟨0,0,3,0,0,-40⟩,⟨0,-1,2,0,0,-34⟩,⟨0,1,0,2,1,32⟩,⟨0,1,0,-2,1,32⟩,⟨0,2,1,0,2,-28⟩,⟨0,1,2,0,1,27⟩,⟨0,-1,1,-2,0,-5⟩,⟨0,0,2,2,0,4⟩,⟨0,1,1,2,0,-4⟩,⟨0,-2,1,0,0,4⟩,⟨0,1,1,-2,0,3⟩,⟨0,3,0,0,0,3⟩,⟨0,0,2,-2,0,2⟩,⟨0,-1,1,2,0,2⟩,⟨0,1,3,0,0,-2⟩,⟨1,0,0,0,0,306⟩,⟨1,1,0,0,1,-38⟩,⟨1,0,1,0,0,26⟩,⟨1,-1,1,0,0,-2⟩,⟨1,1,1,0,0,2⟩,⟨1,0,0,2,0,2⟩]

theorem new_cert : (Nat.ble (Laurent.l1 (one (poly col0 newC))) 1068047096261741294335957382517185009165905518366566358 &&
    Nat.ble (le (poly col0 newC)) 2540131934909921503092254395056647367692216090922820036) = true := by decide +kernel
theorem full_cert : (Nat.ble (Laurent.l1 (one (poly col2 fullC))) 1346609989478563464209548281445828859010545183554356120 &&
    Nat.ble (le (poly col2 fullC)) 2696888353822426386201429523892157895768426338679749104) = true := by decide +kernel
theorem quarter_cert : (Nat.ble (Laurent.l1 (one (poly col1 quarterC))) 2604409882670322193384065778717020214796794587467760614 &&
    Nat.ble (le (poly col1 quarterC)) 2611517593240720076405235156824474776376714962119010779) = true := by decide +kernel
theorem new_fit : Laurent.l1 (one (poly col0 newC)) ≤ 1068047096261741294335957382517185009165905518366566358 ∧ le (poly col0 newC) ≤ 2540131934909921503092254395056647367692216090922820036 := by
  have h := new_cert
  rw [Bool.and_eq_true, Nat.ble_eq, Nat.ble_eq] at h
  exact h
theorem full_fit : Laurent.l1 (one (poly col2 fullC)) ≤ 1346609989478563464209548281445828859010545183554356120 ∧ le (poly col2 fullC) ≤ 2696888353822426386201429523892157895768426338679749104 := by
  have h := full_cert
  rw [Bool.and_eq_true, Nat.ble_eq, Nat.ble_eq] at h
  exact h
theorem quarter_fit : Laurent.l1 (one (poly col1 quarterC)) ≤ 2604409882670322193384065778717020214796794587467760614 ∧ le (poly col1 quarterC) ≤ 2611517593240720076405235156824474776376714962119010779 := by
  have h := quarter_cert
  rw [Bool.and_eq_true, Nat.ble_eq, Nat.ble_eq] at h
  exact h
theorem lip_rowsL : lipn rowsL ≤ 18074535 := by decide +kernel

/-- The corrections as they are evaluated, at D = 0, π, π/2 and 3π/2. -/
noncomputable def mpt (D0 : ℝ) (m : Moonphase.Mp) : Pt := ⟨D0, m.M, m.M', m.F, m.E⟩

theorem nfc_new (D0 : ℝ) (m : Moonphase.Mp) : Moonphase.nfc m Moonphase.nc = 1e-5 * sinS (mpt D0 m) newC - 0.00017 * sin m.Ω := by
  simp only [Moonphase.nfc, Moonphase.nc, series, newC, sinS, mpt, Tm.ang, List.map_cons, List.map_nil, List.sum_cons, List.sum_nil, List.getD_cons_zero,
    List.getD_cons_succ, Int.cast_zero, Int.cast_one, Int.cast_neg, Int.cast_ofNat, zero_mul, zero_add, add_zero, one_mul, neg_mul, pow_zero, pow_one, mul_one]
  ring_nf
theorem nfc_full (D0 : ℝ) (m : Moonphase.Mp) : Moonphase.nfc m Moonphase.fc = 1e-5 * sinS (mpt D0 m) fullC - 0.00017 * sin m.Ω := by
  simp only [Moonphase.nfc, Moonphase.fc, series, fullC, sinS, mpt, Tm.ang, List.map_cons, List.map_nil, List.sum_cons, List.sum_nil, List.getD_cons_zero,
    List.getD_cons_succ, Int.cast_zero, Int.cast_one, Int.cast_neg, Int.cast_ofNat, zero_mul, zero_add, add_zero, one_mul, neg_mul, pow_zero, pow_one, mul_one]
  ring_nf
theorem flc_first (m : Moonphase.Mp) : Moonphase.flc m + Moonphase.w m = 1e-5 * sinS (mpt (π / 2) m) quarterC - 0.00017 * sin m.Ω := by
  simp only [Moonphase.flc, Moonphase.w, series, quarterC, sinS, mpt, Tm.ang, List.map_cons, List.map_nil, List.sum_cons, List.sum_nil,
    Int.cast_zero, Int.cast_one, Int.cast_neg, Int.cast_ofNat, zero_mul, zero_add, add_zero, one_mul, neg_mul, pow_zero, pow_one, mul_one, sin_pi_div_two]
  have hs : ∀ y : ℝ, sin (π / 2 + y) = cos y := fun y => by rw [add_comm, sin_add_pi_div_two]
  simp only [add_assoc, hs]
  ring_nf
theorem flc_last (m : Moonphase.Mp) : Moonphase.flc m - Moonphase.w m = 1e-5 * sinS (mpt (3 * π / 2) m) quarterC - 0.00017 * sin m.Ω := by
  have hs : ∀ y : ℝ, sin (3 * π / 2 + y) = -cos y := fun y => by
    rw [show 3 * π / 2 + y = y + π / 2 + π by ring, sin_add_pi, sin_add_pi_div_two]
  have h0 : sin (3 * π / 2) = -1 := by have := hs 0; rwa [add_zero, cos_zero] at this
  simp only [Moonphase.flc, Moonphase.w, series, quarterC, sinS, mpt, Tm.ang, List.map_cons, List.map_nil, List.sum_cons, List.sum_nil,
    Int.cast_zero, Int.cast_one, Int.cast_neg, Int.cast_ofNat, zero_mul, zero_add, add_zero, one_mul, neg_mul, pow_zero, pow_one, mul_one, h0]
  simp only [add_assoc, hs]
  ring_nf

end Verif.Props
