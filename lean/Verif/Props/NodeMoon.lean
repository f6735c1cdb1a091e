import Verif.Props.NodeCert
import Verif.Props.PhaseMoon
/-
C171: the passages of the Moon through the nodes of package moonnode against the latitude of package moonposition.
-/
namespace Verif.Props

open Real Verif.Spec Verif.Go Verif.Model Verif.Lemmas Verif.Lemmas.PolyQ Verif.Lemmas.Laurent

theorem coreB (col : Tm → Tm) (x : Pt) (hcol : ∀ t, (col t).ev x = t.ev x) (hE : |x.E - 1| ≤ 0.026)
    (hab : (Nat.ble (Laurent.l1 (one (polyB col))) (7826 * 2 * 10 ^ 50) && Nat.ble (le (polyB col)) (4403 * 2 * 10 ^ 50)) = true)
    (c : ℝ) (hc : |c - 1e-5 * sinS x nodeC| ≤ 0.0024) :
    |sinS (x.shift wb (1e-7 * deg * c / 36525)) rowsB| ≤ 29760 := by
  rw [Bool.and_eq_true, Nat.ble_eq, Nat.ble_eq] at hab
  have hE3 : |x.E| ≤ 1.03 := by
    rw [abs_le] at *
    norm_num at *
    constructor <;> linarith
  obtain ⟨kl, ku⟩ := kap_num
  have k0 : 0 ≤ kap := by norm_num at kl; linarith
  have hk : |kap| ≤ 4.778452e-19 := by rw [abs_of_nonneg k0]; exact ku
  -- sizes
  have cast1 : ∀ {p : List Tm} {m : ℕ}, Laurent.l1 p ≤ m → (1.061 : ℝ) * Laurent.l1 p ≤ 1.061 * m := by
    intro p m h
    have : (Laurent.l1 p : ℝ) ≤ m := by exact_mod_cast h
    gcongr
  have b1 : |sinS x nodeC| ≤ 1.061 * (76930 : ℕ) := (sinS_abs x _ hE3 c_e).trans (cast1 c_l1)
  have b2 : |sinS x (nodeC.filter (big 200))| ≤ 1.061 * (76930 : ℕ) := (sinS_abs x _ hE3 (emax2_filter c_e _)).trans (cast1 c_l1b)
  have b3 : |sinS x (nodeC.filter (small 200))| ≤ 1.061 * (290 : ℕ) := (sinS_abs x _ hE3 (emax2_filter c_e _)).trans (cast1 c_l1s)
  have b4 : |sinS x (rowsB.map (Tm.w2 wb))| ≤ 1.061 * (169181069004165417100784882924982 : ℕ) :=
    (sinS_abs x _ hE3 (emax2_w2 b_e _)).trans (cast1 b_w2)
  have b5 : |sinS x ((rowsB.filter (small 2000)).map (Tm.w2 wb))| ≤ 1.061 * (3263587567031199073959380881922 : ℕ) :=
    (sinS_abs x _ hE3 (emax2_w2 (emax2_filter b_e _) _)).trans (cast1 b_w2s)
  have b6 : |sinS x ((rowsB.filter (big 2000)).map (Tm.w2 wb))| ≤ 1.061 * (169181069004165417100784882924982 : ℕ) :=
    (sinS_abs x _ hE3 (emax2_w2 (emax2_filter b_e _) _)).trans (cast1 b_w2b)
  have b7 : |cosS x (rowsB.map (Tm.w1 wb))| ≤ 1.061 * (29998319528217967184 : ℕ) := (cosS_abs x _ hE3 (emax2_w1 b_e _)).trans (cast1 b_w1)
  push_cast at b1 b2 b3 b4 b5 b6 b7
  -- the shift
  have e1 : 1e-7 * deg * c / 36525 - kap * sinS x nodeC = kap * 1e5 * (c - 1e-5 * sinS x nodeC) := by unfold kap; ring
  have s1 := shift_lip x wb (1e-7 * deg * c / 36525) (kap * sinS x nodeC) rowsB hE3 b_e
  have s2 : |1e-7 * deg * c / 36525 - kap * sinS x nodeC| ≤ 4.778452e-14 * 0.0024 := by
    rw [e1, abs_mul, abs_of_nonneg (by positivity)]
    refine mul_le_mul (by norm_num at *; linarith) hc (abs_nonneg _) (by norm_num)
  have s3 : 1.061 * |1e-7 * deg * c / 36525 - kap * sinS x nodeC| * (Laurent.l1 (rowsB.map (Tm.w1 wb)) : ℝ) ≤ 1.061 * (4.778452e-14 * 0.0024) * 29998319528217967184 := by
    have := b_w1
    gcongr
    exact_mod_cast this
  have y1 : |kap * sinS x nodeC| ≤ 4.778452e-19 * (1.061 * 76930) := by
    rw [abs_mul, abs_of_nonneg k0]
    exact mul_le_mul ku b1 (abs_nonneg _) (by norm_num)
  -- Taylor
  have t1 := taylor_sum x wb (kap * sinS x nodeC) rowsB hE3 b_e (by
    intro t ht
    have h1 := List.all_eq_true.1 b_wt t ht
    rw [decide_eq_true_eq] at h1
    have h2 : |(t.wt wb : ℝ)| ≤ 23281339753411 := by rw [← natAbs_real]; exact_mod_cast h1
    rw [abs_mul]
    exact (mul_le_mul h2 y1 (abs_nonneg _) (by norm_num)).trans (by norm_num))
  have t2 : 1.061 * (5 / 24) * |kap * sinS x nodeC| ^ 3 * (Laurent.l1 (rowsB.map (Tm.w3 wb)) : ℝ) ≤
      1.061 * (5 / 24) * (4.778452e-19 * (1.061 * 76930)) ^ 3 * 1104956726436645974498866982006717831675602142 := by
    have := b_w3
    gcongr
    exact_mod_cast this
  have f1 := sinS_filter x 200 id nodeC
  rw [List.map_id, List.map_id, List.map_id] at f1
  have f2 := sinS_filter x 2000 (Tm.w2 wb) rowsB
  have hcN : (cN : ℝ) = 1e50 := by unfold cN; norm_num
  have p1 := ev_bound x (polyB col) 0.026 hE (by norm_num)
  rw [polyB_ev col x hcol, norm_mul, Complex.norm_real, Real.norm_eq_abs, norm_mul, Complex.norm_I, Complex.norm_two] at p1
  have ha' : (Laurent.l1 (one (polyB col)) : ℝ) ≤ 7826 * 2 * 10 ^ 50 := by exact_mod_cast hab.1
  have hb' : (le (polyB col) : ℝ) * 0.026 ≤ (4403 * 2 * 10 ^ 50) * 0.026 := mul_le_mul_of_nonneg_right (by exact_mod_cast hab.2) (by norm_num)
  have hp : |0 * sinS x nodeC + sinS x rowsB + 2 * r1 / cN * (sinS x nodeC * cosS x (rowsB.map (Tm.w1 wb))) -
      4 * r2 / cN * (sinS x (nodeC.filter (big 200)) ^ 2 * sinS x ((rowsB.filter (big 2000)).map (Tm.w2 wb)))| ≤ 7826 + 4403 * 0.026 := by
    have hpos : (0 : ℝ) < cN := by rw [hcN]; norm_num
    rw [show 0 * sinS x nodeC + sinS x rowsB + 2 * r1 / cN * (sinS x nodeC * cosS x (rowsB.map (Tm.w1 wb))) -
      4 * r2 / cN * (sinS x (nodeC.filter (big 200)) ^ 2 * sinS x ((rowsB.filter (big 2000)).map (Tm.w2 wb))) =
      (cN * sinS x rowsB + 2 * r1 * (sinS x nodeC * cosS x (rowsB.map (Tm.w1 wb))) -
      4 * r2 * (sinS x (nodeC.filter (big 200)) ^ 2 * sinS x ((rowsB.filter (big 2000)).map (Tm.w2 wb)))) / cN by field_simp; ring, abs_div, abs_of_pos hpos,
      div_le_iff₀ hpos]
    rw [hcN] at p1 ⊢
    norm_num only at p1 ha' hb' ⊢
    linarith
  have hR : |(0 : ℝ) * (c - 1e-5 * sinS x nodeC)| ≤ 0 := by rw [zero_mul, abs_zero]
  have key := combine 0 c (sinS x nodeC) _ _ _ _ (sinS x rowsB) _ _ _ _ kap 0 0 _ _ 0
    _ _ _ _ _ _ _ _ _ _ _ 0 _ _ hR (s1.trans s3) (t1.trans t2) hp (by ring) f1 f2 b1 b2 b3 b7 b4 b6 b5 hk (by norm_num) k1_err k2_err
  rw [zero_mul, zero_add] at key
  exact key.trans (by norm_num)

/-! The arguments at the passage -/

theorem nF_l2 : PolyQ.l1 (pcomp (resid qF mNode nF 1) [0, 1001 / 100]) ≤ 12 / 10000 := by decide +kernel
theorem nT_l1 : PolyQ.l1 (pcomp (resid [0, 1] mNode [0, 1] 0) [0, 1001 / 100]) ≤ 7 / 10000 := by decide +kernel

/-- Where the mean arguments of the Moon are, argument of latitude first. -/
noncomputable def ptB (T : ℝ) : Pt := ⟨Moonposition.argF T, Moonposition.argM T, Moonposition.argM' T, Moonposition.argD T, Moonposition.ecc T⟩

theorem closeB_date {k T T0 h F0 : ℝ} {n : ℤ} {q : ℝ} (hk : k = n + q) (hTk : T = k / 1342.23) (hT : |T| ≤ 10.01) (hT0 : T0 = (PolyQ.ev mNode T - 2451545) / 36525)
    (hF : F0 = q * (2 * π)) (ht : |T0| ≤ 11) (hh : |h| ≤ 3e-5) :
    Close (ptB (T0 + h)) (Pt.shift ⟨F0, Moonposition.argM T0, Moonposition.argM' T0, Moonposition.argD T0, Moonposition.ecc (T0 + h)⟩ wb (1e-7 * deg * h)) 3e-5 := by
  obtain ⟨d0, d1⟩ := deg_small
  have hT' : |T| ≤ ((1001 / 100 : ℚ) : ℝ) := by push_cast; norm_num at *; exact hT
  have fin : ∀ u : ℝ, |u| ≤ 1e-5 → |deg * u| ≤ 3e-5 := by
    intro u hu
    rw [abs_mul, abs_of_pos d0]
    exact (mul_le_mul d1 hu (abs_nonneg _) (by norm_num)).trans (by norm_num)
  refine ⟨⟨n + 1, ?_⟩, ⟨0, ?_⟩, ⟨0, ?_⟩, ⟨0, ?_⟩, ?_⟩
  · have r := resid_bound qF mNode nF 1 (1001 / 100) _ (by norm_num) nF_l2 hT'
    rw [← hT0] at r
    have r2 : PolyQ.ev nF T = 360 * k := by rw [hTk]; simp only [PolyQ.ev, nF]; push_cast; ring
    have l := lin_F ht hh
    have e : (ptB (T0 + h)).D - (Pt.shift ⟨F0, Moonposition.argM T0, Moonposition.argM' T0, Moonposition.argD T0, Moonposition.ecc (T0 + h)⟩ wb (1e-7 * deg * h)).D -
        ((n + 1 : ℤ) : ℝ) * (2 * π) = deg * ((PolyQ.ev qF (T0 + h) - PolyQ.ev qF T0 - 483202.0175233 * h) + (PolyQ.ev qF T0 - PolyQ.ev nF T - 360 * (1 : ℤ))) := by
      rw [r2, hk]
      simp only [ptB, Pt.shift, wb, argF_ev, hF]; push_cast; unfold deg; ring
    rw [e, abs_mul, abs_of_pos d0]
    refine (mul_le_mul d1 ((abs_add_le _ _).trans (add_le_add l r)) (abs_nonneg _) (by norm_num)).trans ?_
    push_cast; norm_num
  · have l := lin_M ht hh
    have e : (ptB (T0 + h)).M - (Pt.shift ⟨F0, Moonposition.argM T0, Moonposition.argM' T0, Moonposition.argD T0, Moonposition.ecc (T0 + h)⟩ wb (1e-7 * deg * h)).M -
        ((0 : ℤ) : ℝ) * (2 * π) = deg * (PolyQ.ev qM (T0 + h) - PolyQ.ev qM T0 - 35999.0502909 * h) := by
      simp only [ptB, Pt.shift, wb, argM_ev]; push_cast; ring
    rw [e]; exact fin _ l
  · have l := lin_P ht hh
    have e : (ptB (T0 + h)).P - (Pt.shift ⟨F0, Moonposition.argM T0, Moonposition.argM' T0, Moonposition.argD T0, Moonposition.ecc (T0 + h)⟩ wb (1e-7 * deg * h)).P -
        ((0 : ℤ) : ℝ) * (2 * π) = deg * (PolyQ.ev qM' (T0 + h) - PolyQ.ev qM' T0 - 477198.8675055 * h) := by
      simp only [ptB, Pt.shift, wb, argM'_ev]; push_cast; ring
    rw [e]; exact fin _ l
  · have l := lin_D ht hh
    have e : (ptB (T0 + h)).F - (Pt.shift ⟨F0, Moonposition.argM T0, Moonposition.argM' T0, Moonposition.argD T0, Moonposition.ecc (T0 + h)⟩ wb (1e-7 * deg * h)).F -
        ((0 : ℤ) : ℝ) * (2 * π) = deg * (PolyQ.ev qD (T0 + h) - PolyQ.ev qD T0 - 445267.1114034 * h) := by
      simp only [ptB, Pt.shift, wb, argD_ev]; push_cast; ring
    rw [e]; exact fin _ l
  · show |Moonposition.ecc (T0 + h) - Moonposition.ecc (T0 + h)| ≤ 3e-5
    rw [sub_self, abs_zero]; norm_num

theorem tb_M : (Moonposition.tb.all fun r => Nat.ble r.M.natAbs 2) = true := by decide +kernel

theorem rowsB_eq (T : ℝ) (l : List Moonposition.Row) (h : (l.all fun r => Nat.ble r.M.natAbs 2) = true) :
    (l.map fun r => r.c * sin (r.arg T) * r.fac (Moonposition.ecc T)).sum = sinS (ptB T) (l.map rowB) := by
  induction l with
  | nil => simp [sinS]
  | cons r l ih =>
    rw [List.all_cons, Bool.and_eq_true, Nat.ble_eq] at h
    rw [List.map_cons, List.sum_cons, List.map_cons, sinS_cons, ih h.2, fac_pow r _ h.1]
    have : (rowB r).ang (ptB T) = r.arg T := by
      simp only [Tm.ang, rowB, ptB, Moonposition.Row.arg]; ring
    rw [this]
    simp only [rowB, ptB]; ring

theorem sumb_rows (T : ℝ) : |Moonposition.sumb T - sinS (ptB T) rowsB| ≤ 3209 := by
  unfold Moonposition.sumb rowsB
  simp only
  rw [rowsB_eq T _ tb_M, add_sub_cancel_right]
  have h1 := abs_le.1 (abs_sin_le_one (Moonposition.meanLon T))
  have h2 := abs_le.1 (abs_sin_le_one (313.45 * deg + 481266.484 * deg * T))
  have h3 := abs_le.1 (abs_sin_le_one (119.75 * deg + 131.849 * deg * T - Moonposition.argF T))
  have h4 := abs_le.1 (abs_sin_le_one (119.75 * deg + 131.849 * deg * T + Moonposition.argF T))
  have h5 := abs_le.1 (abs_sin_le_one (Moonposition.meanLon T - Moonposition.argM' T))
  have h6 := abs_le.1 (abs_sin_le_one (Moonposition.meanLon T + Moonposition.argM' T))
  rw [abs_le]
  constructor <;> linarith [h1.1, h1.2, h2.1, h2.2, h3.1, h3.2, h4.1, h4.2, h5.1, h5.2, h6.1, h6.2]

/-- The terms of the passage. -/
theorem nodeTerms_eq (F0 E D M M' Ω V P : ℝ) :
    nodeTerms E D M M' Ω V P = 1e-5 * sinS ⟨F0, M, M', D, E⟩ nodeC + (0.0017 * sin Ω + 0.0003 * sin V + 0.0003 * sin P) := by
  simp only [nodeTerms, series, nodeC, sinS, Tm.ang, List.map_cons, List.map_nil, List.sum_cons, List.sum_nil,
    Int.cast_zero, Int.cast_one, Int.cast_neg, Int.cast_ofNat, zero_mul, zero_add, add_zero, one_mul, neg_mul, pow_zero, pow_one, mul_one]
  ring_nf

set_option maxHeartbeats 800000 in
theorem node_gen {k F0 q : ℝ} {n : ℤ} (hk : k = n + q) (hk' : |k| ≤ 13424) (hF : F0 = q * (2 * π)) (col : Tm → Tm)
    (hcol : ∀ x : Pt, x.D = F0 → ∀ t, (col t).ev x = t.ev x)
    (hab : (Nat.ble (Laurent.l1 (one (polyB col))) (7826 * 2 * 10 ^ 50) && Nat.ble (le (polyB col)) (4403 * 2 * 10 ^ 50)) = true) :
    |(Moonposition.Position (Moonnode.nodeK k)).2.1| ≤ 0.034 * deg ∧ Congr (Moonposition.argF (J2000Century (Moonnode.nodeK k))) F0 11 := by
  obtain ⟨d0, d1⟩ := deg_small
  obtain ⟨T, hTd⟩ : ∃ T, T = k * Moonnode.ck := ⟨_, rfl⟩
  have hTk : T = k / 1342.23 := by rw [hTd]; unfold Moonnode.ck; ring
  have hT : |T| ≤ 10.0013 := by
    rw [hTk, abs_div, abs_of_pos (by norm_num : (0 : ℝ) < 1342.23), div_le_iff₀ (by norm_num)]
    exact hk'.trans (by norm_num)
  have hT' : |T| ≤ ((1001 / 100 : ℚ) : ℝ) := hT.trans (by push_cast; norm_num)
  have hT3 : |T| ≤ ((3001 / 100 : ℚ) : ℝ) := hT.trans (by push_cast; norm_num)
  have hm : hornerR T [2451565.1619, 27.212220817 / Moonnode.ck, 0.0002762, 0.000000021, -0.000000000088] = PolyQ.ev mNode T := by
    simp only [Moonnode.ck, hornerR, List.foldr, PolyQ.ev, mNode]; push_cast; ring
  obtain ⟨D, hD⟩ : ∃ D, D = hornerR T [183.638 * deg, 331.73735682 * deg / Moonnode.ck, 0.0014852 * deg, 0.00000209 * deg, -0.00000001 * deg] := ⟨_, rfl⟩
  obtain ⟨M, hM⟩ : ∃ M, M = hornerR T [17.4006 * deg, 26.8203725 * deg / Moonnode.ck, 0.0001186 * deg, 0.00000006 * deg] := ⟨_, rfl⟩
  obtain ⟨M', hM'⟩ : ∃ M', M' = hornerR T [38.3776 * deg, 355.52747313 * deg / Moonnode.ck, 0.0123499 * deg, 0.000014627 * deg, -0.000000069 * deg] := ⟨_, rfl⟩
  obtain ⟨Ω, hΩ⟩ : ∃ Ω, Ω = hornerR T [123.9767 * deg, -1.44098956 * deg / Moonnode.ck, 0.0020608 * deg, 0.00000214 * deg, -0.000000016 * deg] := ⟨_, rfl⟩
  obtain ⟨E, hEd⟩ : ∃ E, E = Moonposition.ecc T := ⟨_, rfl⟩
  obtain ⟨C, hCd⟩ : ∃ C, C = nodeTerms E D M M' Ω (hornerR T [299.75 * deg, 132.85 * deg, -0.009173 * deg]) (Ω + 272.75 * deg - 2.3 * deg * T) := ⟨_, rfl⟩
  have hnode : Moonnode.nodeK k = PolyQ.ev mNode T + C := by
    rw [← hm, hCd, hEd, hD, hM, hM', hΩ, hTd]; exact rfl
  obtain ⟨T0, hT0⟩ : ∃ T0, T0 = (PolyQ.ev mNode T - 2451545) / 36525 := ⟨_, rfl⟩
  have hj : J2000Century (PolyQ.ev mNode T) = T0 := by rw [hT0]; rfl
  have g2 := congr_of (by norm_num) nD_l1 hT3 rfl (argD_ev _) (b := D) (by
      rw [hD]; simp only [hornerR, List.foldr, PolyQ.ev, nD, Moonnode.ck]; push_cast; ring)
  have g3 := congr_of (by norm_num) nM_l1 hT3 rfl (argM_ev _) (b := M) (by
      rw [hM]; simp only [hornerR, List.foldr, PolyQ.ev, nM, Moonnode.ck]; push_cast; ring)
  have g4 := congr_of (by norm_num) nM'_l1 hT3 rfl (argM'_ev _) (b := M') (by
      rw [hM']; simp only [hornerR, List.foldr, PolyQ.ev, nM', Moonnode.ck]; push_cast; ring)
  rw [hj] at g2 g3 g4
  obtain ⟨m2, g2⟩ := g2
  obtain ⟨m3, g3⟩ := g3
  obtain ⟨m4, g4⟩ := g4
  have t0 : |T0 - T| ≤ 7e-4 := by
    have r := resid_bound [0, 1] mNode [0, 1] 0 (1001 / 100) _ (by norm_num) nT_l1 hT'
    rw [← hT0] at r
    simp only [PolyQ.ev] at r
    push_cast at r
    norm_num at r ⊢
    exact r
  have t1 : |T0| ≤ 10.0021 := by
    rw [abs_le] at *; norm_num at hT t0 ⊢; constructor <;> linarith [hT.1, hT.2, t0.1, t0.2]
  have hE0 : |E| ≤ 1.03 := by
    have := ecc_one (T := T) (hT.trans (by norm_num))
    rw [hEd]; rw [abs_le] at *; norm_num at this ⊢; constructor <;> linarith [this.1, this.2]
  have hC : |C - 1e-5 * sinS ⟨F0, M, M', D, E⟩ nodeC| ≤ 0.0023 := by
    rw [hCd, nodeTerms_eq F0, add_sub_cancel_left]
    have h1 := abs_le.1 (abs_sin_le_one Ω)
    have h2 := abs_le.1 (abs_sin_le_one (hornerR T [299.75 * deg, 132.85 * deg, -0.009173 * deg]))
    have h3 := abs_le.1 (abs_sin_le_one (Ω + 272.75 * deg - 2.3 * deg * T))
    rw [abs_le]; norm_num only; constructor <;> linarith [h1.1, h1.2, h2.1, h2.2, h3.1, h3.2]
  have cs : |C| ≤ 0.82 := by
    have h1 := sinS_abs ⟨F0, M, M', D, E⟩ nodeC hE0 c_e
    have h2 : (1.061 : ℝ) * (Laurent.l1 nodeC : ℝ) ≤ 1.061 * 76930 := by
      have : (Laurent.l1 nodeC : ℝ) ≤ 76930 := by exact_mod_cast c_l1
      gcongr
    have h3 := h1.trans h2
    generalize sinS ⟨F0, M, M', D, E⟩ nodeC = u at *
    clear h1 h2
    rw [abs_le] at h3 hC ⊢; norm_num at h3 hC ⊢; constructor <;> linarith [h3.1, h3.2, hC.1, hC.2]
  obtain ⟨h, hh⟩ : ∃ h, h = C / 36525 := ⟨_, rfl⟩
  have hh' : |h| ≤ 2.246e-5 := by
    rw [hh, abs_div, abs_of_pos (by norm_num : (0 : ℝ) < 36525), div_le_iff₀ (by norm_num)]
    exact cs.trans (by norm_num)
  have hh'' : |h| ≤ 3e-5 := hh'.trans (by norm_num)
  have hT1 : J2000Century (Moonnode.nodeK k) = T0 + h := by
    rw [hnode, hT0, hh]; unfold J2000Century; ring
  have t2 : |T0 + h| ≤ 10.01 := (abs_add_le _ _).trans ((add_le_add t1 hh'').trans (by norm_num))
  obtain ⟨x0, hx0⟩ : ∃ x0 : Pt, x0 = ⟨F0, Moonposition.argM T0, Moonposition.argM' T0, Moonposition.argD T0, Moonposition.ecc (T0 + h)⟩ := ⟨_, rfl⟩
  have hE := ecc_one t2
  have hE3 : |Moonposition.ecc (T0 + h)| ≤ 1.03 := by
    rw [abs_le] at *; norm_num at hE ⊢; constructor <;> linarith [hE.1, hE.2]
  have tiny : ∀ {u : ℝ} {c : ℚ}, c ≤ 17 / 10000 → |u| ≤ (c : ℝ) * deg → |u| ≤ 3e-5 := by
    intro u c hc hu
    have hc' : (c : ℝ) ≤ 17 / 10000 := by
      have := (Rat.cast_le (K := ℝ)).2 hc
      push_cast at this; exact this
    refine hu.trans ((mul_le_mul hc' d1 d0.le (by norm_num)).trans (by norm_num))
  have cl : Close x0 ⟨F0, M, M', D, E⟩ 3e-5 := by
    rw [hx0]
    refine ⟨⟨0, ?_⟩, ⟨m3, tiny (by norm_num) g3⟩, ⟨m4, tiny (by norm_num) g4⟩, ⟨m2, tiny (by norm_num) g2⟩, ?_⟩
    · show |F0 - F0 - _| ≤ _
      norm_num
    · have e : |T0 + h - T| ≤ 8e-4 := by
        rw [show T0 + h - T = (T0 - T) + h by ring]
        exact (abs_add_le _ _).trans ((add_le_add t0 hh'').trans (by norm_num))
      show |Moonposition.ecc (T0 + h) - E| ≤ _
      rw [hEd]
      have e2 : Moonposition.ecc (T0 + h) - Moonposition.ecc T = (T0 + h - T) * (-0.002516 - 0.0000074 * (T0 + h + T)) := by
        simp only [Moonposition.ecc, hornerR, List.foldr]; ring
      have k : |-0.002516 - 0.0000074 * (T0 + h + T)| ≤ 0.01 := by
        rw [abs_le] at *; norm_num at t2 hT ⊢; constructor <;> linarith [t2.1, t2.2, hT.1, hT.2]
      rw [e2, abs_mul]
      exact (mul_le_mul e k (abs_nonneg _) (by norm_num)).trans (by norm_num)
  have hx3 : |x0.E| ≤ 1.03 := by rw [hx0]; exact hE3
  have hC2 : |C - 1e-5 * sinS x0 nodeC| ≤ 0.0024 := by
    have h1 := close_lip cl nodeC hx3 hE0 c_e
    have h2 : (1.061 : ℝ) * 3e-5 * (lipn nodeC : ℝ) ≤ 1.061 * 3e-5 * 121880 := by
      have : (lipn nodeC : ℝ) ≤ 121880 := by exact_mod_cast c_lip
      gcongr
    have h3 := h1.trans h2
    clear h1 h2
    generalize sinS ⟨F0, M, M', D, E⟩ nodeC = u at *
    generalize sinS x0 nodeC = v at *
    rw [abs_le] at h3 hC ⊢; norm_num at h3 hC ⊢; constructor <;> linarith [h3.1, h3.2, hC.1, hC.2]
  have K := coreB col x0 (hcol x0 (by rw [hx0])) (by rw [hx0]; exact hE) hab C hC2
  have cd := closeB_date hk hTk (hT.trans (by norm_num)) hT0 hF (t1.trans (by norm_num)) hh''
  rw [← hx0] at cd
  have L := close_lip cd rowsB hE3 hx3 b_e
  rw [show 1e-7 * deg * C / 36525 = 1e-7 * deg * h by rw [hh]; ring] at K
  have L2 : (1.061 : ℝ) * 3e-5 * (lipn rowsB : ℝ) ≤ 1.061 * 3e-5 * 7639807 := by
    have : (lipn rowsB : ℝ) ≤ 7639807 := by exact_mod_cast b_lip
    gcongr
  have L3 := L.trans L2
  have S2 := sumb_rows (T0 + h)
  constructor
  · show |Moonposition.sumb (J2000Century (Moonnode.nodeK k)) * 1e-6 * deg| ≤ _
    rw [hT1, abs_mul, abs_of_pos d0]
    refine mul_le_mul_of_nonneg_right ?_ d0.le
    generalize sinS (x0.shift wb (1e-7 * deg * h)) rowsB = u1 at *
    generalize sinS (ptB (T0 + h)) rowsB = u2 at *
    generalize Moonposition.sumb (T0 + h) = u3 at *
    clear * - K L3 S2
    rw [abs_le] at *
    norm_num at K L3 S2 ⊢
    constructor <;> linarith [K.1, K.2, L3.1, L3.2, S2.1, S2.2]
  · obtain ⟨j, hj'⟩ := cd.D
    refine ⟨j, ?_⟩
    rw [hT1]
    have e : (ptB (T0 + h)).D - (x0.shift wb (1e-7 * deg * h)).D - j * (2 * π) = Moonposition.argF (T0 + h) - F0 - j * (2 * π) - 483202.0175233 * deg * h := by
      rw [hx0]; simp only [ptB, Pt.shift, wb]; push_cast; ring
    rw [e] at hj'
    have b : |483202.0175233 * deg * h| ≤ 10.86 * deg := by
      rw [abs_mul, abs_mul, abs_of_pos d0, abs_of_pos (by norm_num : (0 : ℝ) < 483202.0175233)]
      calc 483202.0175233 * deg * |h| ≤ 483202.0175233 * deg * 2.246e-5 := by gcongr
        _ = (483202.0175233 * 2.246e-5) * deg := by ring
        _ ≤ 10.86 * deg := mul_le_mul_of_nonneg_right (by norm_num) d0.le
    have dl : 0.017 ≤ deg := by have := deg_num.1; norm_num at this ⊢; linarith
    generalize Moonposition.argF (T0 + h) - F0 - j * (2 * π) = u at *
    generalize 483202.0175233 * deg * h = v at *
    clear * - hj' b dl
    rw [abs_le] at *
    norm_num at hj' b dl ⊢
    constructor <;> linarith [hj'.1, hj'.2, b.1, b.2]

/-- **C171.**  At the instants which package moonnode gives for the passages of the Moon through the ascending and the descending node, the latitude of the Moon of package
moonposition is zero within 0.034° (it reaches 5.1°), and the mean argument of latitude is within 11° of 0° at the ascending and of 180° at the descending node,
for any year from 1000 to 3000. -/
theorem C171_nodes (year : ℝ) (h : |year - 2000| ≤ 1000) :
    |(Moonposition.Position (Moonnode.Ascending year)).2.1| ≤ 0.034 * deg ∧ Congr (Moonposition.argF (J2000Century (Moonnode.Ascending year))) 0 11 ∧
    |(Moonposition.Position (Moonnode.Descending year)).2.1| ≤ 0.034 * deg ∧ Congr (Moonposition.argF (J2000Century (Moonnode.Descending year))) π 11 := by
  have sr : ∀ q : ℝ, |q| ≤ 1 → ∃ n : ℤ, Moonnode.snap year q = n + q ∧ |Moonnode.snap year q| ≤ 13424 := by
    intro q hq
    obtain ⟨⟨n, h1⟩, h3⟩ := snap_spec ((year - 2000.05) * 13.4223) q
    have hs : Moonnode.snap year q = n + q := h1
    refine ⟨n, hs, ?_⟩
    rw [hs]
    rw [h1] at h3
    rw [abs_le] at *
    constructor <;> norm_num at * <;> linarith
  obtain ⟨n, h1, h2⟩ := sr 0 (by norm_num)
  obtain ⟨n', h1', h2'⟩ := sr 0.5 (by norm_num [abs_of_pos])
  have a := node_gen (F0 := 0) h1 h2 (by ring) col0 (fun x hx => col0_ev x hx) asc_cert
  have b := node_gen (F0 := π) h1' h2' (by ring) col2 (fun x hx => col2_ev x (by rw [hx, Complex.exp_pi_mul_I])) desc_cert
  exact ⟨a.1, a.2, b.1, b.2⟩

/-- The passage of May 1987, example 51.a of the book. -/
example : |(1987.37 : ℝ) - 2000| ≤ 1000 := by norm_num [abs_le]

end Verif.Props
