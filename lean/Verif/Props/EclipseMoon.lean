import Verif.Props.EclipseCert
import Verif.Props.PhaseMoon
import Verif.Props.Eclipse
/-
C182: the eclipses of package eclipse against the phases of package moonphase and the position of the Moon of package moonposition.
-/
namespace Verif.Props

open Real Verif.Spec Verif.Go Verif.Model Verif.Lemmas Verif.Lemmas.PolyQ Verif.Lemmas.Laurent

/-! The sums kept -/

theorem pow_E3 {E : ℝ} (hE : |E| ≤ 1.03) {n : ℕ} (hn : n ≤ 3) : |E| ^ n ≤ 1.1 := by
  have h0 := abs_nonneg E
  have h1 : |E| ^ n ≤ 1.03 ^ n := by gcongr
  refine h1.trans ?_
  interval_cases n <;> norm_num

theorem norm_tm (x : Pt) (hE : |x.E| ≤ 1.03) (t : Tm) (h : t.e ≤ 3) : ‖t.ev x‖ ≤ 1.1 * t.c.natAbs := by
  unfold Tm.ev
  rw [norm_mul, norm_ang, norm_mul, norm_pow, Complex.norm_real, Real.norm_eq_abs, mul_one, Complex.norm_intCast, ← natAbs_real, mul_comm]
  exact mul_le_mul_of_nonneg_right (pow_E3 hE h) (by positivity)

theorem sifted_ev (x : Pt) (hE : |x.E| ≤ 1.03) (p l : List Tm) (acc n : ℕ) (h : sifted p l acc n = true) :
    ‖Laurent.ev x p - Laurent.ev x l‖ + 1.1 * acc ≤ 1.1 * n := by
  induction p generalizing l acc with
  | nil =>
    cases l with
    | nil =>
      rw [sifted, Nat.ble_eq] at h
      have : (acc : ℝ) ≤ n := by exact_mod_cast h
      simp only [Laurent.ev, sub_self, norm_zero, zero_add]
      gcongr
    | cons s l => simp [sifted] at h
  | cons t p ih =>
    have drop : ∀ l, (Nat.ble t.e 3 && sifted p l (acc + t.c.natAbs) n) = true → ‖Laurent.ev x (t :: p) - Laurent.ev x l‖ + 1.1 * acc ≤ 1.1 * n := by
      intro l h
      rw [Bool.and_eq_true, Nat.ble_eq] at h
      have h1 := ih l _ h.2
      have h2 := norm_tm x hE t h.1
      rw [Nat.cast_add] at h1
      have h3 : Laurent.ev x (t :: p) - Laurent.ev x l = t.ev x + (Laurent.ev x p - Laurent.ev x l) := by simp only [Laurent.ev]; ring
      rw [h3]
      have := norm_add_le (t.ev x) (Laurent.ev x p - Laurent.ev x l)
      linarith
    cases l with
    | nil => exact drop _ h
    | cons s l =>
      rw [sifted] at h
      cases hc : (same t s && decide (t.c = s.c)) with
      | false => rw [hc, cond_false] at h; exact drop _ h
      | true =>
        rw [hc, cond_true] at h
        rw [Bool.and_eq_true, decide_eq_true_eq] at hc
        have hs : t.ev x = s.ev x := by
          have h1 := same_ev x hc.1
          unfold same at hc
          simp only [Bool.and_eq_true, decide_eq_true_eq, Nat.beq_eq] at hc
          obtain ⟨⟨⟨⟨⟨h1, h2⟩, h3⟩, h4⟩, h5⟩, h6⟩ := hc
          cases t; cases s
          simp only at h1 h2 h3 h4 h5 h6
          subst h1 h2 h3 h4 h5 h6
          rfl
        have e : Laurent.ev x (t :: p) - Laurent.ev x (s :: l) = Laurent.ev x p - Laurent.ev x l := by simp only [Laurent.ev, hs]; ring
        rw [e]
        exact ih l acc h

theorem polyV_ev (col : Tm → Tm) (C : List Tm) (x : Pt) (h : ∀ t, (col t).ev x = t.ev x) :
    Laurent.ev x (polyV col C) = 2 * Complex.I * ((cN * sinS x rowsV + 2 * r1 * (sinS x C * cosS x (rowsV.map (Tm.w1 wq))) -
      4 * r2 * (sinS x (C.filter (big 100)) ^ 2 * sinS x ((rowsV.filter (big 800)).map (Tm.w2 wq))) : ℝ) : ℂ) := by
  unfold polyV
  simp only [ev_merge, ev_smul, ev_mul, ev_sort, ev_map x col h, ev_odd, ev_even]
  push_cast
  have hI : Complex.I ^ 2 = -1 := Complex.I_sq
  linear_combination 8 * (r2 : ℂ) * Complex.I * (sinS x (C.filter (big 100)) : ℂ) ^ 2 * (sinS x ((rowsV.filter (big 800)).map (Tm.w2 wq)) : ℂ) * hI

theorem polyR_ev (col : Tm → Tm) (C : List Tm) (x : Pt) (h : ∀ t, (col t).ev x = t.ev x) :
    Laurent.ev x (polyR col C) = 2 * ((cN * cosS x rowsR - 2 * r1 * (sinS x (rowsR.map (Tm.w1 wq)) * sinS x C) : ℝ) : ℂ) := by
  unfold polyR
  simp only [ev_merge, ev_smul, ev_mul, ev_sort, ev_map x col h, ev_odd, ev_even]
  push_cast
  have hI : Complex.I ^ 2 = -1 := Complex.I_sq
  linear_combination 4 * (r1 : ℂ) * (sinS x (rowsR.map (Tm.w1 wq)) : ℂ) * (sinS x C : ℂ) * hI

/-- P cos F + Q sin F, in 10⁻⁴. -/
noncomputable def axisS (x : Pt) : ℝ := sinS x eclP * cos x.F + cosS x eclQ * sin x.F

theorem polyE_ev (R V : List Tm) (ρ a b : ℤ) (x : Pt) :
    Laurent.ev x (polyE R V ρ a b) = Laurent.ev x R * Laurent.ev x V - 4 * Complex.I * ((ρ * axisS x : ℝ) : ℂ) +
      2 * Complex.I * ((a * sin x.F + b * sin (3 * x.F) : ℝ) : ℂ) := by
  unfold polyE
  have e1 : cosS x eclF = cos x.F := by simp [cosS, eclF, Tm.ang]
  have e2 : sinS x eclF = sin x.F := by simp [sinS, eclF, Tm.ang]
  have e3 : sinS x [⟨0,0,0,1,0,a⟩,⟨0,0,0,3,0,b⟩] = a * sin x.F + b * sin (3 * x.F) := by simp [sinS, Tm.ang]
  simp only [ev_merge, ev_smul, ev_mul, ev_sort, ev_odd, ev_even, e1, e2, e3, axisS]
  push_cast
  ring

/-! The latitude and the distance at the greatest eclipse -/

theorem v_e : emax2 rowsV = true := by decide +kernel
theorem v_w1 : Laurent.l1 (rowsV.map (Tm.w1 wq)) ≤ 29998319528217967184 := by decide +kernel
theorem v_w2 : Laurent.l1 (rowsV.map (Tm.w2 wq)) ≤ 169181069004165417100784882924982 := by decide +kernel
theorem v_w2b : Laurent.l1 ((rowsV.filter (big 800)).map (Tm.w2 wq)) ≤ 167762614199621153526110407414240 := by decide +kernel
theorem v_w2s : Laurent.l1 ((rowsV.filter (small 800)).map (Tm.w2 wq)) ≤ 1418454804544263574674475510742 := by decide +kernel
theorem v_w3 : Laurent.l1 (rowsV.map (Tm.w3 wq)) ≤ 1104956726436645974498866982006717831675602142 := by decide +kernel
theorem v_wt : (rowsV.all fun t => decide ((t.wt wq).natAbs ≤ 23281339753411)) = true := by decide +kernel
theorem v_lip : lipn rowsV ≤ 7639807 := by decide +kernel
theorem r_e : emax2 rowsR = true := by decide +kernel
theorem r_l1 : Laurent.l1 rowsR ≤ 414683198 := by decide +kernel
theorem r_w1 : Laurent.l1 (rowsR.map (Tm.w1 wq)) ≤ 156356953451249759694 := by decide +kernel
theorem r_w2 : Laurent.l1 (rowsR.map (Tm.w2 wq)) ≤ 916051996186292539900113884195932 := by decide +kernel
theorem r_wt : (rowsR.all fun t => decide ((t.wt wq).natAbs ≤ 23281339753411)) = true := by decide +kernel
theorem r_lip : lipn rowsR ≤ 44663725 := by decide +kernel

/-- What is asked of the series of the correction. -/
structure EclOK (C : List Tm) : Prop where
  e : emax2 C = true
  l : Laurent.l1 C ≤ 62500
  b : Laurent.l1 (C.filter (big 100)) ≤ 62500
  s : Laurent.l1 (C.filter (small 100)) ≤ 170
  lip : lipn C ≤ 86400

theorem solC_ok : EclOK solC := ⟨by decide +kernel, by decide +kernel, by decide +kernel, by decide +kernel, by decide +kernel⟩
theorem lunC_ok : EclOK lunC := ⟨by decide +kernel, by decide +kernel, by decide +kernel, by decide +kernel, by decide +kernel⟩

theorem shift_near {x : Pt} {C : List Tm} {c : ℝ} (hc : |c - 1e-5 * sinS x C| ≤ 0.001) :
    |1e-7 * deg * c / 36525 - kap * sinS x C| ≤ 4.778452e-14 * 0.001 := by
  obtain ⟨kl, ku⟩ := kap_num
  have k0 : 0 ≤ kap := by norm_num at kl; linarith
  have e1 : 1e-7 * deg * c / 36525 - kap * sinS x C = kap * 1e5 * (c - 1e-5 * sinS x C) := by unfold kap; ring
  rw [e1, abs_mul, abs_of_nonneg (by positivity)]
  refine mul_le_mul (by norm_num at *; linarith) hc (abs_nonneg _) (by norm_num)

theorem coreV (C : List Tm) (x : Pt) (ok : EclOK C) (hE3 : |x.E| ≤ 1.03) (c : ℝ) (hc : |c - 1e-5 * sinS x C| ≤ 0.001) :
    |sinS (x.shift wq (1e-7 * deg * c / 36525)) rowsV - (sinS x rowsV + 2 * r1 / cN * (sinS x C * cosS x (rowsV.map (Tm.w1 wq))) -
      4 * r2 / cN * (sinS x (C.filter (big 100)) ^ 2 * sinS x ((rowsV.filter (big 800)).map (Tm.w2 wq))))| ≤ 10570 := by
  obtain ⟨kl, ku⟩ := kap_num
  have k0 : 0 ≤ kap := by norm_num at kl; linarith
  have hk : |kap| ≤ 4.778452e-19 := by rw [abs_of_nonneg k0]; exact ku
  have cast1 : ∀ {p : List Tm} {m : ℕ}, Laurent.l1 p ≤ m → (1.061 : ℝ) * Laurent.l1 p ≤ 1.061 * m := by
    intro p m h
    have : (Laurent.l1 p : ℝ) ≤ m := by exact_mod_cast h
    gcongr
  have b1 : |sinS x C| ≤ 1.061 * (62500 : ℕ) := (sinS_abs x _ hE3 ok.e).trans (cast1 ok.l)
  have b2 : |sinS x (C.filter (big 100))| ≤ 1.061 * (62500 : ℕ) := (sinS_abs x _ hE3 (emax2_filter ok.e _)).trans (cast1 ok.b)
  have b3 : |sinS x (C.filter (small 100))| ≤ 1.061 * (170 : ℕ) := (sinS_abs x _ hE3 (emax2_filter ok.e _)).trans (cast1 ok.s)
  have b4 : |sinS x (rowsV.map (Tm.w2 wq))| ≤ 1.061 * (169181069004165417100784882924982 : ℕ) :=
    (sinS_abs x _ hE3 (emax2_w2 v_e _)).trans (cast1 v_w2)
  have b5 : |sinS x ((rowsV.filter (small 800)).map (Tm.w2 wq))| ≤ 1.061 * (1418454804544263574674475510742 : ℕ) :=
    (sinS_abs x _ hE3 (emax2_w2 (emax2_filter v_e _) _)).trans (cast1 v_w2s)
  have b6 : |sinS x ((rowsV.filter (big 800)).map (Tm.w2 wq))| ≤ 1.061 * (167762614199621153526110407414240 : ℕ) :=
    (sinS_abs x _ hE3 (emax2_w2 (emax2_filter v_e _) _)).trans (cast1 v_w2b)
  have b7 : |cosS x (rowsV.map (Tm.w1 wq))| ≤ 1.061 * (29998319528217967184 : ℕ) := (cosS_abs x _ hE3 (emax2_w1 v_e _)).trans (cast1 v_w1)
  push_cast at b1 b2 b3 b4 b5 b6 b7
  have s1 := shift_lip x wq (1e-7 * deg * c / 36525) (kap * sinS x C) rowsV hE3 v_e
  have s2 := shift_near hc
  have s3 : 1.061 * |1e-7 * deg * c / 36525 - kap * sinS x C| * (Laurent.l1 (rowsV.map (Tm.w1 wq)) : ℝ) ≤ 1.061 * (4.778452e-14 * 0.001) * 29998319528217967184 := by
    have := v_w1
    gcongr
    exact_mod_cast this
  have y1 : |kap * sinS x C| ≤ 4.778452e-19 * (1.061 * 62500) := by
    rw [abs_mul, abs_of_nonneg k0]
    exact mul_le_mul ku b1 (abs_nonneg _) (by norm_num)
  have t1 := taylor_sum x wq (kap * sinS x C) rowsV hE3 v_e (by
    intro t ht
    have h1 := List.all_eq_true.1 v_wt t ht
    rw [decide_eq_true_eq] at h1
    have h2 : |(t.wt wq : ℝ)| ≤ 23281339753411 := by rw [← natAbs_real]; exact_mod_cast h1
    rw [abs_mul]
    exact (mul_le_mul h2 y1 (abs_nonneg _) (by norm_num)).trans (by norm_num))
  have t2 : 1.061 * (5 / 24) * |kap * sinS x C| ^ 3 * (Laurent.l1 (rowsV.map (Tm.w3 wq)) : ℝ) ≤
      1.061 * (5 / 24) * (4.778452e-19 * (1.061 * 62500)) ^ 3 * 1104956726436645974498866982006717831675602142 := by
    have := v_w3
    gcongr
    exact_mod_cast this
  have f1 := sinS_filter x 100 id C
  rw [List.map_id, List.map_id, List.map_id] at f1
  have f2 := sinS_filter x 800 (Tm.w2 wq) rowsV
  have hR : |(0 : ℝ) * (c - 1e-5 * sinS x C)| ≤ 0 := by rw [zero_mul, abs_zero]
  obtain ⟨B2, hB2⟩ : ∃ B2, B2 = sinS x rowsV + 2 * r1 / cN * (sinS x C * cosS x (rowsV.map (Tm.w1 wq))) -
      4 * r2 / cN * (sinS x (C.filter (big 100)) ^ 2 * sinS x ((rowsV.filter (big 800)).map (Tm.w2 wq))) := ⟨_, rfl⟩
  rw [← hB2]
  have hp : |0 * sinS x C + (sinS x rowsV - B2) + 2 * r1 / cN * (sinS x C * cosS x (rowsV.map (Tm.w1 wq))) -
      4 * r2 / cN * (sinS x (C.filter (big 100)) ^ 2 * sinS x ((rowsV.filter (big 800)).map (Tm.w2 wq)))| ≤ 0 := by
    rw [hB2, show ∀ a b d e : ℝ, 0 * a + (b - (b + d - e)) + d - e = 0 by intros; ring, abs_zero]
  have s1' : |(sinS (x.shift wq (1e-7 * deg * c / 36525)) rowsV - B2) - (sinS (x.shift wq (kap * sinS x C)) rowsV - B2)| ≤
      1.061 * (4.778452e-14 * 0.001) * 29998319528217967184 := by
    rw [sub_sub_sub_cancel_right]; exact s1.trans s3
  have t1' : |(sinS (x.shift wq (kap * sinS x C)) rowsV - B2) - ((sinS x rowsV - B2) + kap * sinS x C * cosS x (rowsV.map (Tm.w1 wq)) -
      (kap * sinS x C) ^ 2 / 2 * sinS x (rowsV.map (Tm.w2 wq)))| ≤
      1.061 * (5 / 24) * (4.778452e-19 * (1.061 * 62500)) ^ 3 * 1104956726436645974498866982006717831675602142 := by
    rw [show ∀ a b d e f : ℝ, (a - b) - ((d - b) + e - f) = a - (d + e - f) by intros; ring]; exact t1.trans t2
  have key := combine 0 c (sinS x C) _ _ _ _ (sinS x rowsV - B2) _ _ _ _ kap 0 0 _ _ 0
    _ _ _ _ _ _ _ _ _ _ _ 0 _ _ hR s1' t1' hp (by ring) f1 f2 b1 b2 b3 b7 b4 b6 b5 hk (by norm_num) k1_err k2_err
  rw [zero_mul, zero_add] at key
  exact key.trans (by norm_num)

theorem coreR (C : List Tm) (x : Pt) (ok : EclOK C) (hE3 : |x.E| ≤ 1.03) (c : ℝ) (hc : |c - 1e-5 * sinS x C| ≤ 0.001) :
    |cosS (x.shift wq (1e-7 * deg * c / 36525)) rowsR - (cosS x rowsR - 2 * r1 / cN * (sinS x (rowsR.map (Tm.w1 wq)) * sinS x C))| ≤ 661500 := by
  obtain ⟨kl, ku⟩ := kap_num
  have k0 : 0 ≤ kap := by norm_num at kl; linarith
  have cast1 : ∀ {p : List Tm} {m : ℕ}, Laurent.l1 p ≤ m → (1.061 : ℝ) * Laurent.l1 p ≤ 1.061 * m := by
    intro p m h
    have : (Laurent.l1 p : ℝ) ≤ m := by exact_mod_cast h
    gcongr
  have b1 : |sinS x C| ≤ 1.061 * (62500 : ℕ) := (sinS_abs x _ hE3 ok.e).trans (cast1 ok.l)
  have b2 : |sinS x (rowsR.map (Tm.w1 wq))| ≤ 1.061 * (156356953451249759694 : ℕ) := (sinS_abs x _ hE3 (emax2_w1 r_e _)).trans (cast1 r_w1)
  push_cast at b1 b2
  have s2 := shift_near hc
  have y1 : |kap * sinS x C| ≤ 4.778452e-19 * (1.061 * 62500) := by
    rw [abs_mul, abs_of_nonneg k0]
    exact mul_le_mul ku b1 (abs_nonneg _) (by norm_num)
  obtain ⟨y, hy⟩ : ∃ y, y = 1e-7 * deg * c / 36525 := ⟨_, rfl⟩
  rw [← hy] at s2 ⊢
  have y2 : |y| ≤ 3.174e-14 := by
    have := abs_add_le (y - kap * sinS x C) (kap * sinS x C)
    rw [sub_add_cancel] at this
    exact this.trans ((add_le_add s2 y1).trans (by norm_num))
  have t1 := taylor_cos x wq y rowsR hE3 r_e (by
    intro t ht
    have h1 := List.all_eq_true.1 r_wt t ht
    rw [decide_eq_true_eq] at h1
    have h2 : |(t.wt wq : ℝ)| ≤ 23281339753411 := by rw [← natAbs_real]; exact_mod_cast h1
    rw [abs_mul]
    exact (mul_le_mul h2 y2 (abs_nonneg _) (by norm_num)).trans (by norm_num))
  have t2 : 1.061 * (2 / 3) * y ^ 2 * (Laurent.l1 (rowsR.map (Tm.w2 wq)) : ℝ) ≤ 1.061 * (2 / 3) * 3.174e-14 ^ 2 * 916051996186292539900113884195932 := by
    have := r_w2
    rw [← sq_abs y]
    gcongr
    exact_mod_cast this
  have t3 := t1.trans t2
  have a1 : |(y - kap * sinS x C) * sinS x (rowsR.map (Tm.w1 wq))| ≤ 4.778452e-14 * 0.001 * (1.061 * 156356953451249759694) := by
    rw [abs_mul]; exact mul_le_mul s2 b2 (abs_nonneg _) (by norm_num)
  have a2 : |(kap - 2 * r1 / cN) * (sinS x (rowsR.map (Tm.w1 wq)) * sinS x C)| ≤ 1e-28 * (1.061 * 156356953451249759694 * (1.061 * 62500)) := by
    rw [abs_mul, abs_mul]
    exact mul_le_mul k1_err (mul_le_mul b2 b1 (abs_nonneg _) (by norm_num)) (by positivity) (by norm_num)
  have e : cosS (x.shift wq y) rowsR - (cosS x rowsR - 2 * r1 / cN * (sinS x (rowsR.map (Tm.w1 wq)) * sinS x C)) =
      (cosS (x.shift wq y) rowsR - (cosS x rowsR - y * sinS x (rowsR.map (Tm.w1 wq)))) - (y - kap * sinS x C) * sinS x (rowsR.map (Tm.w1 wq)) -
      (kap - 2 * r1 / cN) * (sinS x (rowsR.map (Tm.w1 wq)) * sinS x C) := by ring
  rw [e]
  refine (abs_sub _ _).trans ((add_le_add (abs_sub _ _) le_rfl).trans ?_)
  refine (add_le_add (add_le_add t3 a1) a2).trans (by norm_num)

/-- The numbers of the two cases. -/
structure EclCert (col : Tm → Tm) (C R V E : List Tm) (ρ a b : ℤ) : Prop where
  ok : EclOK C
  sR : sifted (polyR col C) R 0 (38000 * 10 ^ 50) = true
  sV : sifted (polyV col C) V 0 (400 * 10 ^ 50) = true
  eE : E = polyE R V ρ a b
  l1 : Nat.ble (Laurent.l1 (one E)) (20000000000000 * 10 ^ 100) = true
  le : Nat.ble (le E) (23000000000000 * 10 ^ 100) = true

theorem solE_def : solE = polyE solR solV (3610148786266 * 10 ^ 98) (-317540547737539 * 10 ^ 99) (105446894155935 * 10 ^ 99) := by delta solE; rfl
theorem lunE_def : lunE = polyE lunR lunV (3619490333683 * 10 ^ 98) (-200750813226699 * 10 ^ 99) (105567555641078 * 10 ^ 99) := by delta lunE; rfl

theorem ble_up {n a b : ℕ} (h : Nat.ble n a = true) (hab : Nat.ble a b = true) : Nat.ble n b = true := by
  rw [Nat.ble_eq] at *; exact h.trans hab

theorem sol_cert : EclCert col0 solC solR solV solE (3610148786266 * 10 ^ 98) (-317540547737539 * 10 ^ 99) (105446894155935 * 10 ^ 99) :=
  ⟨solC_ok, solR_sifted, solV_sifted, solE_def, solE_l1, solE_le⟩
theorem lun_cert : EclCert col2 lunC lunR lunV lunE (3619490333683 * 10 ^ 98) (-200750813226699 * 10 ^ 99) (105567555641078 * 10 ^ 99) :=
  ⟨lunC_ok, lunR_sifted, lunV_sifted, lunE_def, ble_up lunE_l1 (by norm_num), lunE_le⟩

theorem sifted_zero (x : Pt) (hE : |x.E| ≤ 1.03) (p l : List Tm) (n : ℕ) (N : ℝ) (h : sifted p l 0 n = true) (hN : (n : ℝ) = N) :
    ‖Laurent.ev x p - Laurent.ev x l‖ ≤ 1.1 * N := by
  have := sifted_ev x hE _ _ _ _ h
  rw [hN, Nat.cast_zero, mul_zero, add_zero] at this
  exact this

theorem prod_norm (A B A' B' : ℂ) (α β : ℝ) (hA : ‖A - A'‖ ≤ α) (hB : ‖B - B'‖ ≤ β) : ‖A * B - A' * B'‖ ≤ (‖A‖ + α) * β + α * ‖B‖ := by
  have e : A * B - A' * B' = A' * (B - B') + (A - A') * B := by ring
  have h0 : ‖A'‖ ≤ ‖A‖ + α := by
    have := norm_sub_norm_le A' A
    rw [norm_sub_rev] at this
    linarith
  have hα := (norm_nonneg _).trans hA
  rw [e]
  refine (norm_add_le _ _).trans ?_
  rw [norm_mul, norm_mul]
  gcongr

/-- The product of distance and latitude. -/
theorem prod_est {col : Tm → Tm} {C R V Ep : List Tm} {ρ a b : ℤ} (ce : EclCert col C R V Ep ρ a b) (x : Pt) (hcol : ∀ t, (col t).ev x = t.ev x)
    (hE : |x.E - 1| ≤ 0.026) (c : ℝ) (hc : |c - 1e-5 * sinS x C| ≤ 0.001) :
    let S := sinS (x.shift wq (1e-7 * deg * c / 36525)) rowsV
    let D := cosS (x.shift wq (1e-7 * deg * c / 36525)) rowsR
    |D * S - ρ / 1e100 * axisS x + (a * sin x.F + b * sin (3 * x.F)) / 2e100| ≤ (2 * |D| + 1364800) * 5395 + 682400 * |S| + 5.1495e12 := by
  intro S D
  have hE3 : |x.E| ≤ 1.03 := by
    rw [abs_le] at *
    norm_num at *
    constructor <;> linarith
  have hcN : (cN : ℝ) = 1e50 := by unfold cN; norm_num
  have v1 : |S - _| ≤ 10570 := coreV C x ce.ok hE3 c hc
  have w1 : |D - _| ≤ 661500 := coreR C x ce.ok hE3 c hc
  clear_value S D
  have v2 := sifted_zero x hE3 _ _ _ 400e50 ce.sV (by norm_num)
  have w2 := sifted_zero x hE3 _ _ _ 38000e50 ce.sR (by norm_num)
  rw [polyV_ev col C x hcol] at v2
  rw [polyR_ev col C x hcol] at w2
  have v3 : ‖2 * Complex.I * ((1e50 * S : ℝ) : ℂ) - Laurent.ev x V‖ ≤ 21580e50 := by
    have e : 2 * Complex.I * ((1e50 * S : ℝ) : ℂ) - Laurent.ev x V = 2 * Complex.I * ((1e50 * (S - (sinS x rowsV + 2 * r1 / cN * (sinS x C * cosS x (rowsV.map (Tm.w1 wq))) -
        4 * r2 / cN * (sinS x (C.filter (big 100)) ^ 2 * sinS x ((rowsV.filter (big 800)).map (Tm.w2 wq))))) : ℝ) : ℂ) +
        (2 * Complex.I * ((cN * sinS x rowsV + 2 * r1 * (sinS x C * cosS x (rowsV.map (Tm.w1 wq))) -
        4 * r2 * (sinS x (C.filter (big 100)) ^ 2 * sinS x ((rowsV.filter (big 800)).map (Tm.w2 wq))) : ℝ) : ℂ) - Laurent.ev x V) := by
      rw [hcN]; push_cast; ring
    rw [e]
    refine (norm_add_le _ _).trans ?_
    rw [norm_mul, norm_mul, Complex.norm_I, Complex.norm_two, Complex.norm_real, Real.norm_eq_abs, abs_mul]
    refine (add_le_add (mul_le_mul_of_nonneg_left (mul_le_mul_of_nonneg_left v1 (abs_nonneg _)) (by norm_num)) v2).trans ?_
    norm_num [abs_of_pos]
  have w3 : ‖2 * ((1e50 * D : ℝ) : ℂ) - Laurent.ev x R‖ ≤ 1364800e50 := by
    have e : 2 * ((1e50 * D : ℝ) : ℂ) - Laurent.ev x R = 2 * ((1e50 * (D - (cosS x rowsR - 2 * r1 / cN * (sinS x (rowsR.map (Tm.w1 wq)) * sinS x C))) : ℝ) : ℂ) +
        (2 * ((cN * cosS x rowsR - 2 * r1 * (sinS x (rowsR.map (Tm.w1 wq)) * sinS x C) : ℝ) : ℂ) - Laurent.ev x R) := by
      rw [hcN]; push_cast; ring
    rw [e]
    refine (norm_add_le _ _).trans ?_
    rw [norm_mul, Complex.norm_two, Complex.norm_real, Real.norm_eq_abs, abs_mul]
    refine (add_le_add (mul_le_mul_of_nonneg_left (mul_le_mul_of_nonneg_left w1 (abs_nonneg _)) (by norm_num)) w2).trans ?_
    norm_num [abs_of_pos]
  have p1 := prod_norm _ _ _ _ _ _ w3 v3
  have p2 := ev_bound x Ep 0.026 hE (by norm_num)
  have q1 : (Laurent.l1 (one Ep) : ℝ) ≤ 20000000000000 * 10 ^ 100 := by exact_mod_cast Nat.le_of_ble_eq_true ce.l1
  have q2 : (le Ep : ℝ) ≤ 23000000000000 * 10 ^ 100 := by exact_mod_cast Nat.le_of_ble_eq_true ce.le
  rw [ce.eE, polyE_ev, ← ce.eE] at p2
  have e : ((4e100 * (D * S - ρ / 1e100 * axisS x + (a * sin x.F + b * sin (3 * x.F)) / 2e100) : ℝ) : ℂ) * Complex.I =
      (2 * ((1e50 * D : ℝ) : ℂ) * (2 * Complex.I * ((1e50 * S : ℝ) : ℂ)) - Laurent.ev x R * Laurent.ev x V) +
      (Laurent.ev x R * Laurent.ev x V - 4 * Complex.I * ((ρ * axisS x : ℝ) : ℂ) + 2 * Complex.I * ((a * sin x.F + b * sin (3 * x.F) : ℝ) : ℂ)) := by
    push_cast; ring
  have n0 := congrArg norm e
  rw [norm_mul, Complex.norm_I, mul_one, Complex.norm_real, Real.norm_eq_abs, abs_mul, abs_of_pos (by norm_num)] at n0
  have n1 := n0.le.trans ((norm_add_le _ _).trans (add_le_add p1 p2))
  rw [norm_mul, norm_mul, norm_mul, Complex.norm_I, Complex.norm_two, Complex.norm_real, Complex.norm_real, Real.norm_eq_abs, Real.norm_eq_abs, abs_mul, abs_mul,
    abs_of_pos (by norm_num : (0 : ℝ) < 1e50)] at n1
  clear e n0 p1 p2 v1 v2 v3 w1 w2 w3 hc
  generalize |D * S - ρ / 1e100 * axisS x + (a * sin x.F + b * sin (3 * x.F)) / 2e100| = X at *
  generalize (Laurent.l1 (one Ep) : ℝ) = L1 at *
  generalize (le Ep : ℝ) = LE at *
  generalize |D| = d at *
  generalize |S| = s at *
  clear * - n1 q1 q2
  norm_num at n1 q1 q2 ⊢
  linarith

/-- The estimate with real numbers. -/
theorem ecl_real (Dp D S sb A A1 γ W pu ρ fx : ℝ) (h1 : |D * S - ρ * A + pu| ≤ (2 * |D| + 1364800) * 5395 + 682400 * |S| + 5.1495e12)
    (h2 : |Dp - D| ≤ 4739) (h3 : |sb - S| ≤ 4020) (d1 : 3.53e8 ≤ D) (d2 : D ≤ 4.17e8) (h5 : |fx * ρ - 0.9952e-4| ≤ 1e-12) (h6 : |fx * pu| ≤ 0.0033)
    (f1 : 2.749e-15 ≤ fx) (f2 : fx ≤ 2.7575e-15) (h8 : |A1 - A| ≤ 35.3) (hγ : γ = 1e-4 * A1 * (1 - 0.0048 * W)) (w1 : 0.9325 ≤ W) (w2 : W ≤ 1)
    (g : |γ| ≤ 1.6) : |fx * (Dp * sb) - γ| ≤ 0.0425 ∧ |sb| ≤ 1.695e6 := by
  have f0 : 0 < fx := lt_of_lt_of_le (by norm_num) f1
  have a1 : |A1| ≤ 16080 := by
    rw [hγ, abs_mul, abs_mul, abs_of_pos (by norm_num : (0 : ℝ) < 1e-4)] at g
    have h := le_abs_self (1 - 0.0048 * W)
    have k := mul_le_mul_of_nonneg_left (show 0.9952 ≤ |1 - 0.0048 * W| by norm_num at *; linarith) (abs_nonneg A1)
    norm_num at g k ⊢; linarith
  have a2 : |A| ≤ 16120 := by
    rw [abs_le] at *; norm_num at *; constructor <;> linarith
  have e1 : |0.9952e-4 * A1 - γ| ≤ 0.00053 := by
    rw [hγ, show 0.9952e-4 * A1 - 1e-4 * A1 * (1 - 0.0048 * W) = (-(0.0048e-4) * (1 - W)) * A1 by ring, abs_mul]
    have : |(-(0.0048e-4) * (1 - W) : ℝ)| ≤ 0.0048e-4 * 0.0675 := by
      rw [abs_mul, abs_of_nonneg (by linarith : 0 ≤ 1 - W)]; norm_num at *; linarith
    exact (mul_le_mul this a1 (abs_nonneg _) (by norm_num)).trans (by norm_num)
  have e2 : |0.9952e-4 * (A - A1)| ≤ 0.00352 := by
    rw [abs_mul, abs_sub_comm]
    exact (mul_le_mul_of_nonneg_left h8 (abs_nonneg _)).trans (by norm_num [abs_of_pos])
  have e3 : |(fx * ρ - 0.9952e-4) * A| ≤ 1e-6 := by
    rw [abs_mul]; exact (mul_le_mul h5 a2 (abs_nonneg _) (by norm_num)).trans (by norm_num)
  have hD : |D| = D := abs_of_pos (lt_of_lt_of_le (by norm_num) d1)
  have e4 : |fx * (D * S - ρ * A + pu)| ≤ 2.7575e-15 * ((2 * 4.17e8 + 1364800) * 5395 + 682400 * |S| + 5.1495e12) := by
    rw [abs_mul, abs_of_pos f0]
    refine mul_le_mul f2 (h1.trans ?_) (abs_nonneg _) (by norm_num)
    rw [hD]; norm_num at *; linarith
  have e5 : fx * (D * S) - γ = fx * (D * S - ρ * A + pu) - fx * pu + (fx * ρ - 0.9952e-4) * A + 0.9952e-4 * (A - A1) + (0.9952e-4 * A1 - γ) := by ring
  have e6 : |fx * (D * S) - γ| ≤ 2.7575e-15 * ((2 * 4.17e8 + 1364800) * 5395 + 682400 * |S| + 5.1495e12) + 0.0033 + 1e-6 + 0.00352 + 0.00053 := by
    rw [e5]
    generalize fx * (D * S - ρ * A + pu) = u1 at *
    generalize fx * pu = u2 at *
    generalize (fx * ρ - 0.9952e-4) * A = u3 at *
    generalize 0.9952e-4 * (A - A1) = u4 at *
    generalize 0.9952e-4 * A1 - γ = u5 at *
    generalize 2.7575e-15 * ((2 * 4.17e8 + 1364800) * 5395 + 682400 * |S| + 5.1495e12) = u6 at *
    clear * - e1 e2 e3 e4 h6
    rw [abs_le] at *; constructor <;> linarith [e1.1, e1.2, e2.1, e2.2, e3.1, e3.2, e4.1, e4.2, h6.1, h6.2]
  have s1 : |S| ≤ 1.69e6 := by
    have k1 : 2.749e-15 * (3.53e8 * |S|) ≤ |fx * (D * S)| := by
      rw [abs_mul, abs_mul, hD, abs_of_pos f0]
      have := abs_nonneg S
      gcongr
    have k2 := abs_sub_abs_le_abs_sub (fx * (D * S)) γ
    generalize |S| = s at *
    generalize |fx * (D * S)| = u at *
    generalize |fx * (D * S) - γ| = v at *
    clear * - k1 k2 e6 g
    norm_num at *
    linarith
  have s2 : |sb| ≤ 1.695e6 := by
    have := abs_add_le (sb - S) S
    rw [sub_add_cancel] at this
    norm_num at *; linarith
  refine ⟨?_, s2⟩
  have k1 : |Dp * (sb - S)| ≤ 4.171e8 * 4020 := by
    rw [abs_mul]
    refine mul_le_mul ?_ h3 (abs_nonneg _) (by norm_num)
    rw [abs_le] at *; norm_num at *; constructor <;> linarith
  have k2 : |(Dp - D) * S| ≤ 4739 * 1.69e6 := by
    rw [abs_mul]; exact mul_le_mul h2 s1 (abs_nonneg _) (by norm_num)
  have k3 : |fx * (Dp * (sb - S) + (Dp - D) * S)| ≤ 2.7575e-15 * (4.171e8 * 4020 + 4739 * 1.69e6) := by
    rw [abs_mul, abs_of_pos f0]
    exact mul_le_mul f2 ((abs_add_le _ _).trans (add_le_add k1 k2)) (abs_nonneg _) (by norm_num)
  rw [show fx * (Dp * sb) - γ = (fx * (D * S) - γ) + fx * (Dp * (sb - S) + (Dp - D) * S) by ring]
  refine (abs_add_le _ _).trans ((add_le_add e6 k3).trans ?_)
  generalize |S| = s at *
  clear * - s1
  norm_num at *
  linarith

open Verif.Model.Eclipse in
/-- The point of the arguments of package eclipse. -/
noncomputable def ept (D0 k : ℝ) : Pt :=
  let T := k * Moonphase.ck
  ⟨D0, argM T, argM' T, argF T - 0.02665 * deg * sin (argΩ T), argE T⟩

open Verif.Model.Eclipse in
theorem g_jmax (D0 k jm : ℝ) (c1 c2 : ℤ) (h : ¬ |sin (argF (k * Moonphase.ck))| > 0.36) :
    (g k jm (c1 / 1e5) (c2 / 1e5)).jmax = jm + (1e-5 * sinS (ept D0 k) (eclC c1 c2) +
      (0.0003 * sin (Eclipse.argA1 (k * Moonphase.ck)) - 0.0002 * sin (argΩ (k * Moonphase.ck)))) := by
  unfold g
  dsimp only
  rw [if_neg h]
  unfold ept
  dsimp only
  generalize argF (k * Moonphase.ck) - 0.02665 * deg * sin (argΩ (k * Moonphase.ck)) = F1
  generalize argM (k * Moonphase.ck) = M
  generalize argM' (k * Moonphase.ck) = M'
  generalize argE (k * Moonphase.ck) = E
  generalize argΩ (k * Moonphase.ck) = Ω
  generalize Eclipse.argA1 (k * Moonphase.ck) = A1
  simp only [series, eclC, sinS, Tm.ang, List.map_cons, List.map_nil, List.sum_cons, List.sum_nil,
    Int.cast_zero, Int.cast_one, Int.cast_neg, Int.cast_ofNat, zero_mul, zero_add, add_zero, one_mul, neg_mul, pow_zero, pow_one, mul_one]
  ring_nf

open Verif.Model.Eclipse in
theorem axis_axisS (D0 k : ℝ) : axis k = 1e-4 * axisS (ept D0 k) * (1 - 0.0048 * |cos (ept D0 k).F|) := by
  unfold axis gammaOf
  simp only [ept, axisS, P, Q, eclP, eclQ, sinS, cosS, Tm.ang, List.map_cons, List.map_nil, List.sum_cons, List.sum_nil,
    Int.cast_zero, Int.cast_one, Int.cast_neg, Int.cast_ofNat, zero_mul, zero_add, add_zero, one_mul, neg_mul, pow_zero, pow_one, mul_one, cos_zero]
  ring_nf

theorem rowsR_eq (T : ℝ) (l : List Moonposition.Row) (h : (l.all fun r => Nat.ble r.M.natAbs 2) = true) :
    (l.map fun r => r.r * cos (r.arg T) * r.fac (Moonposition.ecc T)).sum = cosS (pt T) (l.map rowR) := by
  induction l with
  | nil => simp [cosS]
  | cons r l ih =>
    rw [List.all_cons, Bool.and_eq_true, Nat.ble_eq] at h
    rw [List.map_cons, List.sum_cons, List.map_cons, cosS_cons, ih h.2, fac_pow r _ h.1]
    have : (rowR r).ang (pt T) = r.arg T := by
      simp only [Tm.ang, rowR, pt, Moonposition.Row.arg]; ring
    rw [this]
    simp only [rowR, pt]; ring

theorem dist_eq (T : ℝ) : 385000.56 + Moonposition.sumr T * 1e-3 = 1e-3 * cosS (pt T) rowsR := by
  unfold Moonposition.sumr rowsR
  rw [rowsR_eq T _ ta_M, cosS_cons]
  simp only [Tm.ang, Int.cast_zero, zero_mul, add_zero, cos_zero, pow_zero]
  push_cast
  ring

theorem tbV_M : (Moonposition.tb.all fun r => Nat.ble r.M.natAbs 2) = true := by decide +kernel

theorem sumb_pt (T : ℝ) : |Moonposition.sumb T - sinS (pt T) rowsV| ≤ 3209 := by
  unfold Moonposition.sumb rowsV
  simp only
  rw [rows_eq T _ tbV_M, add_sub_cancel_right]
  have h1 := abs_le.1 (abs_sin_le_one (Moonposition.meanLon T))
  have h2 := abs_le.1 (abs_sin_le_one (313.45 * deg + 481266.484 * deg * T))
  have h3 := abs_le.1 (abs_sin_le_one (119.75 * deg + 131.849 * deg * T - Moonposition.argF T))
  have h4 := abs_le.1 (abs_sin_le_one (119.75 * deg + 131.849 * deg * T + Moonposition.argF T))
  have h5 := abs_le.1 (abs_sin_le_one (Moonposition.meanLon T - Moonposition.argM' T))
  have h6 := abs_le.1 (abs_sin_le_one (Moonposition.meanLon T + Moonposition.argM' T))
  rw [abs_le]
  constructor <;> linarith [h1.1, h1.2, h2.1, h2.2, h3.1, h3.2, h4.1, h4.2, h5.1, h5.2, h6.1, h6.2]

theorem ra_e : emax2 (Moonposition.ta.map rowR) = true := by decide +kernel
theorem ra_l1 : Laurent.l1 (Moonposition.ta.map rowR) ≤ 29682638 := by decide +kernel

theorem dist_range (x : Pt) (hE : |x.E| ≤ 1.03) : 3.53e8 ≤ cosS x rowsR ∧ cosS x rowsR ≤ 4.17e8 := by
  have h := cosS_abs x _ hE ra_e
  have h' : (Laurent.l1 (Moonposition.ta.map rowR) : ℝ) ≤ 29682638 := by exact_mod_cast ra_l1
  unfold rowsR
  rw [cosS_cons]
  simp only [Tm.ang, Int.cast_zero, zero_mul, add_zero, cos_zero, pow_zero]
  generalize cosS x (Moonposition.ta.map rowR) = u at *
  generalize (Laurent.l1 (Moonposition.ta.map rowR) : ℝ) = v at *
  rw [abs_le] at h
  norm_num at *
  constructor <;> linarith [h.1, h.2]

theorem p_e : emax2 eclP = true := by decide +kernel
theorem p_l1 : Laurent.l1 eclP ≤ 2860 := by decide +kernel
theorem p_lip : lipn eclP ≤ 5492 := by decide +kernel
theorem q_e : emax2 eclQ = true := by decide +kernel
theorem q_l1 : Laurent.l1 eclQ ≤ 55675 := by decide +kernel
theorem q_lip : lipn eclQ ≤ 3758 := by decide +kernel

theorem axis_lip {x y : Pt} (cl : Close x y 4.9e-4) (hE : |x.E| ≤ 1.03) (hE' : |y.E| ≤ 1.03) : |axisS y - axisS x| ≤ 35.3 := by
  have up : ∀ {p : ℕ} {m : ℕ} (c : ℝ), 0 ≤ c → p ≤ m → c * (p : ℝ) ≤ c * m := by
    intro p m c hc h
    have : (p : ℝ) ≤ m := by exact_mod_cast h
    gcongr
  have a1 := (close_lip cl eclP hE hE' p_e).trans (up _ (by norm_num) p_lip)
  have a2 := (close_lip_cos cl eclQ hE hE' q_e).trans (up _ (by norm_num) q_lip)
  have a3 := (sinS_abs y eclP hE' p_e).trans (up _ (by norm_num) p_l1)
  have a4 := (cosS_abs y eclQ hE' q_e).trans (up _ (by norm_num) q_l1)
  obtain ⟨m, hm⟩ := cl.F
  have s1 : |sin x.F - sin y.F| ≤ 4.9e-4 := by
    have := close_ang cl ⟨0, 0, 0, 1, 0, 1⟩
    simpa [Tm.ang] using this
  have s2 : |cos x.F - cos y.F| ≤ 4.9e-4 := by
    have := close_ang_cos cl ⟨0, 0, 0, 1, 0, 1⟩
    simpa [Tm.ang] using this
  unfold axisS
  rw [show sinS y eclP * cos y.F + cosS y eclQ * sin y.F - (sinS x eclP * cos x.F + cosS x eclQ * sin x.F) =
    -((sinS x eclP - sinS y eclP) * cos x.F) - sinS y eclP * (cos x.F - cos y.F) - (cosS x eclQ - cosS y eclQ) * sin x.F - cosS y eclQ * (sin x.F - sin y.F) by ring]
  have b1 : |(sinS x eclP - sinS y eclP) * cos x.F| ≤ 1.061 * 4.9e-4 * (5492 : ℕ) := by
    rw [abs_mul]; exact (mul_le_of_le_one_right (abs_nonneg _) (abs_cos_le_one _)).trans a1
  have b2 : |(cosS x eclQ - cosS y eclQ) * sin x.F| ≤ 1.061 * 4.9e-4 * (3758 : ℕ) := by
    rw [abs_mul]; exact (mul_le_of_le_one_right (abs_nonneg _) (abs_sin_le_one _)).trans a2
  have b3 : |sinS y eclP * (cos x.F - cos y.F)| ≤ 1.061 * (2860 : ℕ) * 4.9e-4 := by
    rw [abs_mul]; exact mul_le_mul a3 s2 (abs_nonneg _) (by norm_num)
  have b4 : |cosS y eclQ * (sin x.F - sin y.F)| ≤ 1.061 * (55675 : ℕ) * 4.9e-4 := by
    rw [abs_mul]; exact mul_le_mul a4 s1 (abs_nonneg _) (by norm_num)
  clear a1 a2 a3 a4 s1 s2 hm up
  generalize (sinS x eclP - sinS y eclP) * cos x.F = u1 at *
  generalize (cosS x eclQ - cosS y eclQ) * sin x.F = u2 at *
  generalize sinS y eclP * (cos x.F - cos y.F) = u3 at *
  generalize cosS y eclQ * (sin x.F - sin y.F) = u4 at *
  rw [abs_le] at *
  norm_num at b1 b2 b3 b4 ⊢
  constructor <;> linarith [b1.1, b1.2, b2.1, b2.2, b3.1, b3.2, b4.1, b4.2]

theorem sin_near {b : ℝ} (hb : |b| ≤ 0.0296) : |sin b - b| ≤ 7e-6 := by
  have h := Real.sin_bound (x := b) (hb.trans (by norm_num))
  have h3 : |b| ^ 3 ≤ 0.0296 ^ 3 := by gcongr
  have h4 : |b| ^ 5 ≤ 0.0296 ^ 5 := by gcongr
  have e : sin b - b = (sin b - (b - b ^ 3 / 6)) - b ^ 3 / 6 := by ring
  rw [e]
  refine (abs_sub _ _).trans ?_
  rw [abs_div, abs_pow, abs_of_pos (by norm_num : (0 : ℝ) < 6)]
  norm_num at *
  linarith

open Verif.Model.Eclipse in
set_option maxHeartbeats 1600000 in
theorem ecl_gen {k D0 q : ℝ} {n : ℤ} (hk : k = n + q) (hk' : |k| ≤ 12370) (hD : D0 = q * (2 * π)) {col : Tm → Tm} {c1 c2 : ℤ} {R V Ep : List Tm} {ρ a b : ℤ}
    (ce : EclCert col (eclC c1 c2) R V Ep ρ a b) (hcol : ∀ x : Pt, x.D = D0 → ∀ t, (col t).ev x = t.ev x) (κ : ℝ) (κ1 : 1.0047 ≤ κ) (κ2 : κ ≤ 1.0075)
    (hρ : |κ * 1e-9 * deg / 6378.14 * (ρ / 1e100) - 0.9952e-4| ≤ 1e-12)
    (hab : ∀ s : ℝ, |s| ≤ 0.3605 → |κ * 1e-9 * deg / 6378.14 * ((a * s + b * (3 * s - 4 * s ^ 3)) / 2e100)| ≤ 0.0033)
    (hF : ¬ |sin (argF (k * Moonphase.ck))| > 0.36) (hγ : |axis k| ≤ 1.6) :
    let r := g k (Moonphase.mean (k * Moonphase.ck)) (c1 / 1e5) (c2 / 1e5)
    let P := Moonposition.Position r.jmax
    |r.γ - κ * (P.2.2 / 6378.14) * sin P.2.1| ≤ 0.043 := by
  intro r P
  obtain ⟨d0, d1⟩ := deg_small
  have hr : r.jmax = _ := g_jmax D0 k (Moonphase.mean (k * Moonphase.ck)) c1 c2 hF
  set T := k * Moonphase.ck with hTd
  set Cc := 1e-5 * sinS (ept D0 k) (eclC c1 c2) + (0.0003 * sin (Eclipse.argA1 T) - 0.0002 * sin (argΩ T)) with hCc
  have hTk : T = k / 1236.85 := by
    rw [hTd]; unfold Moonphase.ck; ring
  have hT : |T| ≤ 10.0013 := by
    rw [hTk, abs_div, abs_of_pos (by norm_num : (0 : ℝ) < 1236.85), div_le_iff₀ (by norm_num)]
    exact hk'.trans (by norm_num)
  have hT' : |T| ≤ ((1001 / 100 : ℚ) : ℝ) := hT.trans (by push_cast; norm_num)
  set T0 := (Moonphase.mean T - 2451545) / 36525 with hT0
  have t0 : |T0 - T| ≤ 3e-4 := by
    have r := resid_bound [0, 1] mPhase [0, 1] 0 (1001 / 100) _ (by norm_num) pT_l1 hT'
    rw [← mPhase_ev, ← hT0] at r
    simp only [PolyQ.ev] at r
    push_cast at r
    norm_num at r ⊢
    exact r
  have t1 : |T0| ≤ 10.002 := by
    rw [abs_le] at *; norm_num at *; constructor <;> linarith
  have hE0 : |(ept D0 k).E| ≤ 1.03 := by
    have := ecc_one (T := T) (hT.trans (by norm_num))
    have e : (ept D0 k).E = Moonposition.ecc T := rfl
    rw [e]; rw [abs_le] at *; norm_num at *; constructor <;> linarith
  have up : ∀ {p : ℕ} {m : ℕ} (c : ℝ), 0 ≤ c → p ≤ m → c * (p : ℝ) ≤ c * m := by
    intro p m c hc h
    have : (p : ℝ) ≤ m := by exact_mod_cast h
    gcongr
  have hA : |Cc - 1e-5 * sinS (ept D0 k) (eclC c1 c2)| ≤ 0.0005 := by
    rw [hCc, add_sub_cancel_left]
    have h1 := abs_le.1 (abs_sin_le_one (Eclipse.argA1 T))
    have h2 := abs_le.1 (abs_sin_le_one (argΩ T))
    rw [abs_le]; norm_num
    constructor <;> linarith [h1.1, h1.2, h2.1, h2.2]
  clear_value Cc
  have cs : |Cc| ≤ 0.92 := by
    have h3 := (sinS_abs (ept D0 k) _ hE0 ce.ok.e).trans (up _ (by norm_num) ce.ok.l)
    generalize sinS (ept D0 k) (eclC c1 c2) = u at *
    clear * - h3 hA
    rw [abs_le] at *; norm_num at h3 hA ⊢; constructor <;> linarith [h3.1, h3.2, hA.1, hA.2]
  set h := Cc / 36525 with hh
  have hh' : |h| ≤ 3e-5 := by
    rw [hh, abs_div, abs_of_pos (by norm_num : (0 : ℝ) < 36525), div_le_iff₀ (by norm_num)]
    exact cs.trans (by norm_num)
  have hT1 : J2000Century r.jmax = T0 + h := by
    rw [hr, hT0, hh]; unfold J2000Century; ring
  have t2 : |T0 + h| ≤ 10.01 := (abs_add_le _ _).trans ((add_le_add t1 hh').trans (by norm_num))
  set x0 : Pt := ⟨D0, Moonposition.argM T0, Moonposition.argM' T0, Moonposition.argF T0, Moonposition.ecc (T0 + h)⟩ with hx0
  have hE : |x0.E - 1| ≤ 0.026 := ecc_one t2
  have hE3 : |x0.E| ≤ 1.03 := by
    rw [abs_le] at *; norm_num at hE ⊢; constructor <;> linarith [hE.1, hE.2]
  have hEp : |(pt (T0 + h)).E| ≤ 1.03 := hE3
  obtain ⟨-, ⟨m1, p1⟩, ⟨m2, p2⟩, ⟨m3, p3⟩, -⟩ := C165_phase_arguments k (hk'.trans (by norm_num))
  have tiny : ∀ {u c : ℝ}, c ≤ 0.001 → |u| ≤ c * deg → |u| ≤ 2e-5 := by
    intro u c hc hu
    refine hu.trans ((mul_le_mul hc d1 d0.le (by norm_num)).trans (by norm_num))
  have cl : Close x0 (ept D0 k) 4.9e-4 := by
    refine ⟨⟨0, ?_⟩, ⟨m1, (tiny le_rfl p1).trans (by norm_num)⟩, ⟨m2, (tiny le_rfl p2).trans (by norm_num)⟩, ⟨m3, ?_⟩, ?_⟩
    · show |D0 - D0 - _| ≤ _
      norm_num
    · have q3 : |Moonposition.argF T0 - argF T - m3 * (2 * π)| ≤ 2e-5 := tiny (by norm_num) p3
      show |Moonposition.argF T0 - (argF T - 0.02665 * deg * sin (argΩ T)) - m3 * (2 * π)| ≤ _
      rw [show Moonposition.argF T0 - (argF T - 0.02665 * deg * sin (argΩ T)) - m3 * (2 * π) =
        (Moonposition.argF T0 - argF T - m3 * (2 * π)) + 0.02665 * deg * sin (argΩ T) by ring]
      refine (abs_add_le _ _).trans ((add_le_add q3 ?_).trans (show (2e-5 : ℝ) + 0.02665 * 0.0174533 ≤ 4.9e-4 by norm_num))
      rw [abs_mul, abs_of_pos (by positivity)]
      exact (mul_le_of_le_one_right (by positivity) (abs_sin_le_one _)).trans (mul_le_mul_of_nonneg_left d1 (by norm_num))
    · have : |T0 + h - T| ≤ 4e-4 := by
        rw [show T0 + h - T = (T0 - T) + h by ring]
        exact (abs_add_le _ _).trans ((add_le_add t0 hh').trans (by norm_num))
      exact (ecc_lip (t2.trans (by norm_num)) (hT.trans (by norm_num)) this).trans (by norm_num)
  have hC2 : |Cc - 1e-5 * sinS x0 (eclC c1 c2)| ≤ 0.001 := by
    have h3 := (close_lip cl _ hE3 hE0 ce.ok.e).trans (up _ (by norm_num) ce.ok.lip)
    generalize sinS (ept D0 k) (eclC c1 c2) = u at *
    generalize sinS x0 (eclC c1 c2) = v at *
    clear * - h3 hA
    rw [abs_le] at h3 hA ⊢; norm_num at h3 hA ⊢; constructor <;> linarith [h3.1, h3.2, hA.1, hA.2]
  have K := prod_est ce x0 (hcol x0 rfl) hE Cc hC2
  dsimp only at K
  rw [show 1e-7 * deg * Cc / 36525 = 1e-7 * deg * h by rw [hh]; ring] at K
  have cd : Close (pt (T0 + h)) (x0.shift wq (1e-7 * deg * h)) 1e-4 :=
    close_date hk hTk (hT.trans (by norm_num)) hT0 hD (t1.trans (by norm_num)) hh'
  have hEs : |(x0.shift wq (1e-7 * deg * h)).E| ≤ 1.03 := hE3
  have L1 := (close_lip cd rowsV hEp hEs v_e).trans (up _ (by norm_num) v_lip)
  have L2 := (close_lip_cos cd rowsR hEp hEs r_e).trans (up _ (by norm_num) r_lip)
  have L3 := sumb_pt (T0 + h)
  have DR := dist_range _ hEs
  have DP := dist_range _ hEp
  have X := axis_lip cl hE3 hE0
  have G := axis_axisS D0 k
  -- sizes of the sines
  have sF0 : |sin x0.F| ≤ 0.3605 := by
    have q3 : |Moonposition.argF T0 - argF T - m3 * (2 * π)| ≤ 2e-5 := tiny (by norm_num) p3
    have e : sin x0.F = sin (Moonposition.argF T0 - m3 * (2 * π)) := (sin_sub_int_mul_two_pi _ _).symm
    have l := abs_sin_sub_sin_le (Moonposition.argF T0 - m3 * (2 * π)) (argF T)
    rw [show Moonposition.argF T0 - m3 * (2 * π) - argF T = Moonposition.argF T0 - argF T - m3 * (2 * π) by ring] at l
    have l2 := l.trans q3
    rw [← e] at l2
    have l3 := abs_sub_abs_le_abs_sub (sin x0.F) (sin (argF T))
    have l4 := not_lt.1 hF
    generalize |sin x0.F| = u at *
    generalize |sin (argF T)| = v at *
    clear * - l2 l3 l4
    norm_num at *; linarith
  have sF1 : 0.9325 ≤ |cos (ept D0 k).F| := by
    have l := abs_sin_sub_sin_le (ept D0 k).F (argF T)
    have e : (ept D0 k).F - argF T = -(0.02665 * deg * sin (argΩ T)) := by
      show argF T - 0.02665 * deg * sin (argΩ T) - argF T = _
      ring
    rw [e, abs_neg, abs_mul (0.02665 * deg), abs_of_pos (show 0 < 0.02665 * deg by positivity)] at l
    have l2 : |sin (ept D0 k).F - sin (argF T)| ≤ 0.02665 * 0.0174533 :=
      l.trans ((mul_le_of_le_one_right (by positivity) (abs_sin_le_one _)).trans (mul_le_mul_of_nonneg_left d1 (by norm_num)))
    have l3 := abs_sub_abs_le_abs_sub (sin (ept D0 k).F) (sin (argF T))
    have l4 := not_lt.1 hF
    have l5 : |sin (ept D0 k).F| ≤ 0.3605 := by
      generalize |sin (argF T)| = v at *
      clear * - l2 l3 l4
      norm_num at *; linarith
    have l6 := sin_sq_add_cos_sq (ept D0 k).F
    rw [← sq_abs, ← sq_abs (cos _)] at l6
    have l7 := abs_nonneg (sin (ept D0 k).F)
    have l8 := abs_nonneg (cos (ept D0 k).F)
    generalize |sin (ept D0 k).F| = u at *
    generalize |cos (ept D0 k).F| = v at *
    clear * - l5 l6 l7 l8
    by_contra hv
    norm_num at *
    nlinarith
  have sF2 := abs_cos_le_one (ept D0 k).F
  have s3 : sin (3 * x0.F) = 3 * sin x0.F - 4 * sin x0.F ^ 3 := sin_three_mul _
  rw [s3] at K
  have pu := hab _ sF0
  have rγ : r.γ = axis k := (g_true k _ _ _ hF).2.1
  have hP1 : P.2.1 = Moonposition.sumb (T0 + h) * 1e-6 * deg := by
    show Moonposition.sumb (J2000Century r.jmax) * 1e-6 * deg = _
    rw [hT1]
  have hP2 : P.2.2 = 1e-3 * cosS (pt (T0 + h)) rowsR := by
    rw [← dist_eq, ← hT1]
    rfl
  rw [rγ, hP1, hP2]
  have fx1 : 2.749e-15 ≤ κ * 1e-9 * deg / 6378.14 := by
    rw [le_div_iff₀ (by norm_num)]
    have := mul_le_mul κ1 deg_num.1 (by norm_num) (by linarith)
    norm_num at *; linarith
  have fx2 : κ * 1e-9 * deg / 6378.14 ≤ 2.7575e-15 := by
    rw [div_le_iff₀ (by norm_num)]
    have := mul_le_mul κ2 deg_num.2 d0.le (by norm_num)
    norm_num at *; linarith
  have SB : |Moonposition.sumb (T0 + h) - sinS (x0.shift wq (1e-7 * deg * h)) rowsV| ≤ 4020 := by
    generalize sinS (x0.shift wq (1e-7 * deg * h)) rowsV = u1 at *
    generalize sinS (pt (T0 + h)) rowsV = u2 at *
    generalize Moonposition.sumb (T0 + h) = u3 at *
    clear * - L1 L3
    rw [abs_le] at *
    norm_num at L1 L3 ⊢
    constructor <;> linarith [L1.1, L1.2, L3.1, L3.2]
  have L2' : |cosS (pt (T0 + h)) rowsR - cosS (x0.shift wq (1e-7 * deg * h)) rowsR| ≤ 4739 := L2.trans (by norm_num)
  obtain ⟨F1, F2⟩ := ecl_real _ _ _ _ _ _ _ _ _ _ _ K L2' SB DR.1 DR.2 hρ pu fx1 fx2 X G sF1 sF2 hγ
  -- the sine of the latitude
  have B : |Moonposition.sumb (T0 + h) * 1e-6 * deg| ≤ 0.0296 := by
    rw [abs_mul, abs_mul, abs_of_pos d0, abs_of_pos (by norm_num : (0 : ℝ) < 1e-6)]
    exact (mul_le_mul (mul_le_mul_of_nonneg_right F2 (by norm_num)) d1 d0.le (by norm_num)).trans (by norm_num)
  have B2 := sin_near B
  have e : axis k - κ * (1e-3 * cosS (pt (T0 + h)) rowsR / 6378.14) * sin (Moonposition.sumb (T0 + h) * 1e-6 * deg) =
      -(κ * 1e-9 * deg / 6378.14 * (cosS (pt (T0 + h)) rowsR * Moonposition.sumb (T0 + h)) - axis k) -
      (κ * (1e-3 * cosS (pt (T0 + h)) rowsR / 6378.14)) * (sin (Moonposition.sumb (T0 + h) * 1e-6 * deg) - Moonposition.sumb (T0 + h) * 1e-6 * deg) := by ring
  have B3 : |κ * (1e-3 * cosS (pt (T0 + h)) rowsR / 6378.14)| ≤ 1.0075 * (1e-3 * 4.17e8 / 6378.14) := by
    have c0 : 0 ≤ cosS (pt (T0 + h)) rowsR := le_trans (by norm_num) DP.1
    have κ0 : 0 ≤ κ := le_trans (by norm_num) κ1
    rw [abs_of_nonneg (by positivity)]
    have := DP.2
    gcongr
  rw [e]
  refine (abs_sub _ _).trans ?_
  rw [abs_neg, abs_mul]
  exact (add_le_add F1 (mul_le_mul B3 B2 (abs_nonneg _) (by norm_num))).trans (by norm_num)

/-- The terms of the greatest eclipse less those of the phase, but for the one in 2F. -/
def dSol : List Tm := [⟨0,0,1,0,0,-30⟩,⟨0,1,0,0,1,-31⟩,⟨0,0,2,0,0,2⟩,⟨0,-1,1,0,1,-9⟩,⟨0,1,1,0,1,14⟩,⟨0,0,1,-2,0,-119⟩,⟨0,2,0,0,1,210⟩,⟨0,0,1,2,0,177⟩,⟨0,1,2,0,1,4⟩,⟨0,0,3,0,0,2⟩,⟨0,1,0,2,1,-72⟩,⟨0,1,0,-2,1,-58⟩,⟨0,-1,2,0,1,4⟩,⟨0,2,0,0,2,-208⟩,⟨0,2,1,0,0,7⟩,⟨0,0,2,-2,0,-4⟩,⟨0,3,0,0,0,-4⟩,⟨0,1,1,-2,0,-3⟩,⟨0,0,2,2,0,-3⟩,⟨0,1,1,2,0,3⟩,⟨0,-1,1,2,0,-3⟩,⟨0,-1,1,-2,0,2⟩,⟨0,1,3,0,0,2⟩,⟨0,0,4,0,0,-2⟩]
def dLun : List Tm := [⟨0,0,1,0,0,-36⟩,⟨0,1,0,0,1,-32⟩,⟨0,0,2,0,0,-4⟩,⟨0,-1,1,0,1,-4⟩,⟨0,1,1,0,1,15⟩,⟨0,0,1,-2,0,-119⟩,⟨0,2,0,0,1,210⟩,⟨0,0,1,2,0,177⟩,⟨0,1,2,0,1,4⟩,⟨0,0,3,0,0,2⟩,⟨0,1,0,2,1,-72⟩,⟨0,1,0,-2,1,-58⟩,⟨0,-1,2,0,1,4⟩,⟨0,2,0,0,2,-209⟩,⟨0,2,1,0,0,7⟩,⟨0,0,2,-2,0,-4⟩,⟨0,3,0,0,0,-4⟩,⟨0,1,1,-2,0,-3⟩,⟨0,0,2,2,0,-3⟩,⟨0,1,1,2,0,3⟩,⟨0,-1,1,2,0,-3⟩,⟨0,-1,1,-2,0,2⟩,⟨0,1,3,0,0,2⟩,⟨0,0,4,0,0,-2⟩]

theorem dSol_eq (x : Pt) : sinS x solC = sinS x newC - 2009 * sin (2 * x.F) + sinS x dSol := by
  simp only [solC, eclC, newC, dSol, sinS, Tm.ang, List.map_cons, List.map_nil, List.sum_cons, List.sum_nil,
    Int.cast_zero, Int.cast_one, Int.cast_neg, Int.cast_ofNat, zero_mul, zero_add, add_zero, one_mul, neg_mul, pow_zero, pow_one, mul_one]
  ring
theorem dLun_eq (x : Pt) : sinS x lunC = sinS x fullC - 2013 * sin (2 * x.F) + sinS x dLun := by
  simp only [lunC, eclC, fullC, dLun, sinS, Tm.ang, List.map_cons, List.map_nil, List.sum_cons, List.sum_nil,
    Int.cast_zero, Int.cast_one, Int.cast_neg, Int.cast_ofNat, zero_mul, zero_add, add_zero, one_mul, neg_mul, pow_zero, pow_one, mul_one]
  ring

theorem two_F {F : ℝ} (h : ¬ |sin F| > 0.36) : |sin (2 * F)| ≤ 0.672 := by
  have h1 := not_lt.1 h
  have h2 := sin_sq_add_cos_sq F
  rw [sin_two_mul, abs_mul, abs_mul, abs_of_pos (by norm_num : (0 : ℝ) < 2)]
  rw [← sq_abs, ← sq_abs (cos F)] at h2
  have h3 := abs_nonneg (sin F)
  have h4 := abs_nonneg (cos F)
  generalize |sin F| = u at *
  generalize |cos F| = v at *
  norm_num at *
  have h5 : u ^ 2 ≤ (9 / 25) ^ 2 := by gcongr
  have h6 : (u * v) ^ 2 ≤ (42 / 125) ^ 2 := by
    rw [mul_pow, show v ^ 2 = 1 - u ^ 2 by linarith]
    generalize u ^ 2 = w at *
    nlinarith
  have h7 := abs_le_of_sq_le_sq h6 (by norm_num)
  rw [abs_le] at h7
  linarith [h7.2]

open Verif.Model.Eclipse in
/-- The greatest eclipse and the phase. -/
theorem jmax_gen {k : ℝ} (D0 : ℝ) (hk' : |k| ≤ 12370) {c1 c2 : ℤ} (ok : EclOK (eclC c1 c2)) (N d : List Tm) (m c : ℝ) (hm : |m| ≤ 2013) (hd : emax2 d = true) (hd' : Laurent.l1 d ≤ 979)
    (hN : ∀ x : Pt, sinS x (eclC c1 c2) = sinS x N - m * sin (2 * x.F) + sinS x d)
    (hc : c = 1e-5 * sinS (mpt D0 (Moonphase.newMpK k)) N - 0.00017 * sin (Moonphase.newMpK k).Ω)
    (hF : ¬ |sin (argF (k * Moonphase.ck))| > 0.36) :
    |(g k (Moonphase.mean (k * Moonphase.ck)) (c1 / 1e5) (c2 / 1e5)).jmax - (Moonphase.mean (k * Moonphase.ck) + (c + Moonphase.a (Moonphase.newMpK k)))| ≤ 0.027 := by
  obtain ⟨d0, d1⟩ := deg_small
  rw [g_jmax D0 k _ c1 c2 hF]
  have cb := corr_bound k _ c hc
  set T := k * Moonphase.ck with hTd
  have hTk : T = k / 1236.85 := by
    rw [hTd]; unfold Moonphase.ck; ring
  have hT : |T| ≤ 10.0013 := by
    rw [hTk, abs_div, abs_of_pos (by norm_num : (0 : ℝ) < 1236.85), div_le_iff₀ (by norm_num)]
    exact hk'.trans (by norm_num)
  have hE0 : |(ept D0 k).E| ≤ 1.03 := by
    have := ecc_one (T := T) (hT.trans (by norm_num))
    have e : (ept D0 k).E = Moonposition.ecc T := rfl
    rw [e]; rw [abs_le] at *; norm_num at *; constructor <;> linarith
  have hE1 : |(mpt D0 (Moonphase.newMpK k)).E| ≤ 1.03 := hE0
  have up : ∀ {p : ℕ} {m : ℕ} (c : ℝ), 0 ≤ c → p ≤ m → c * (p : ℝ) ≤ c * m := by
    intro p m c hc h
    have : (p : ℝ) ≤ m := by exact_mod_cast h
    gcongr
  have z : ∀ u : ℝ, |u - u - (0 : ℤ) * (2 * π)| ≤ 4.7e-4 := by intro u; norm_num
  have cl : Close (mpt D0 (Moonphase.newMpK k)) (ept D0 k) 4.7e-4 := by
    refine ⟨⟨0, z D0⟩, ⟨0, z _⟩, ⟨0, z _⟩, ⟨0, ?_⟩, ?_⟩
    · show |argF T - (argF T - 0.02665 * deg * sin (argΩ T)) - (0 : ℤ) * (2 * π)| ≤ _
      rw [show argF T - (argF T - 0.02665 * deg * sin (argΩ T)) - (0 : ℤ) * (2 * π) = 0.02665 * deg * sin (argΩ T) by push_cast; ring]
      rw [abs_mul, abs_of_pos (show 0 < 0.02665 * deg by positivity)]
      exact (mul_le_of_le_one_right (by positivity) (abs_sin_le_one _)).trans ((mul_le_mul_of_nonneg_left d1 (by norm_num)).trans (by norm_num))
    · show |argE T - argE T| ≤ _
      norm_num
  have L := (close_lip cl _ hE1 hE0 ok.e).trans (up _ (by norm_num) ok.lip)
  have S := (sinS_abs (mpt D0 (Moonphase.newMpK k)) d hE1 hd).trans (up _ (by norm_num) hd')
  have F2 : |m * sin (2 * (mpt D0 (Moonphase.newMpK k)).F)| ≤ 2013 * 0.672 := by
    rw [abs_mul]; exact mul_le_mul hm (two_F hF) (abs_nonneg _) (by norm_num)
  have h1 := abs_le.1 (abs_sin_le_one (Eclipse.argA1 T))
  have h2 := abs_le.1 (abs_sin_le_one (argΩ T))
  have e := hN (mpt D0 (Moonphase.newMpK k))
  generalize sinS (mpt D0 (Moonphase.newMpK k)) (eclC c1 c2) = u1 at *
  generalize sinS (ept D0 k) (eclC c1 c2) = u2 at *
  generalize sinS (mpt D0 (Moonphase.newMpK k)) N = u3 at *
  generalize sinS (mpt D0 (Moonphase.newMpK k)) d = u4 at *
  generalize m * sin (2 * (mpt D0 (Moonphase.newMpK k)).F) = u5 at *
  generalize sin (Eclipse.argA1 T) = u6 at *
  generalize sin (argΩ T) = u7 at *
  generalize c + Moonphase.a (Moonphase.newMpK k) = u8 at *
  clear * - cb L S F2 h1 h2 e
  rw [abs_le] at *
  norm_num at cb L S F2 h1 h2 ⊢
  constructor <;> linarith [cb.1, cb.2, L.1, L.2, S.1, S.2, F2.1, F2.2, h1.1, h1.2, h2.1, h2.2]

open Verif.Model.Eclipse in
theorem solar_proj (year : ℝ) : let r := g (Moonphase.snap year 0) (Moonphase.MeanNew year) (-0.4075) 0.1721
    (Solar year).jmax = r.jmax ∧ (Solar year).γ = r.γ := by
  intro r
  unfold Solar solarOf
  dsimp only
  split_ifs <;> exact ⟨rfl, rfl⟩

open Verif.Model.Eclipse in
theorem lunar_proj (year : ℝ) : let r := g (Moonphase.snap year 0.5) (Moonphase.MeanFull year) (-0.4065) 0.1727
    (Lunar year).jmax = r.jmax ∧ (Lunar year).γ = r.γ := by
  intro r
  unfold Lunar lunarOf
  dsimp only
  split_ifs <;> exact ⟨rfl, rfl⟩

theorem rho_sol : |1.0074 * 1e-9 * deg / 6378.14 * (((3610148786266 * 10 ^ 98 : ℤ) : ℝ) / 1e100) - 0.9952e-4| ≤ 1e-12 := by
  obtain ⟨h1, h2⟩ := deg_num
  push_cast
  rw [abs_le]
  norm_num at *
  constructor <;> linarith
theorem rho_lun : |1.0048 * 1e-9 * deg / 6378.14 * (((3619490333683 * 10 ^ 98 : ℤ) : ℝ) / 1e100) - 0.9952e-4| ≤ 1e-12 := by
  obtain ⟨h1, h2⟩ := deg_num
  push_cast
  rw [abs_le]
  norm_num at *
  constructor <;> linarith

theorem pure_gen (fx A B : ℝ) (c d : ℝ) (hA : |fx * A - c| ≤ 1e-6) (hB : |fx * B - d| ≤ 1e-6) (s : ℝ) (hs : |s| ≤ 0.3605) (h : |c * s + d * (3 * s - 4 * s ^ 3)| ≤ 0.00329) :
    |fx * (A * s + B * (3 * s - 4 * s ^ 3))| ≤ 0.0033 := by
  have e : fx * (A * s + B * (3 * s - 4 * s ^ 3)) = (c * s + d * (3 * s - 4 * s ^ 3)) + (fx * A - c) * s + (fx * B - d) * (3 * s - 4 * s ^ 3) := by ring
  have k1 : |(fx * A - c) * s| ≤ 1e-6 * 0.3605 := by
    rw [abs_mul]; exact mul_le_mul hA hs (abs_nonneg _) (by norm_num)
  have k2 : |3 * s - 4 * s ^ 3| ≤ 3 := by
    have h3 : |s| ^ 3 ≤ 0.3605 ^ 3 := by gcongr
    refine (abs_sub _ _).trans ?_
    rw [abs_mul, abs_mul, abs_pow, abs_of_pos (by norm_num : (0 : ℝ) < 3), abs_of_pos (by norm_num : (0 : ℝ) < 4)]
    norm_num at *; linarith
  have k3 : |(fx * B - d) * (3 * s - 4 * s ^ 3)| ≤ 1e-6 * 3 := by
    rw [abs_mul]; exact mul_le_mul hB k2 (abs_nonneg _) (by norm_num)
  rw [e]
  refine (abs_add_le _ _).trans ((add_le_add ((abs_add_le _ _).trans (add_le_add h k1)) k3).trans (by norm_num))

theorem pure_sol (s : ℝ) (hs : |s| ≤ 0.3605) : |1.0074 * 1e-9 * deg / 6378.14 * ((((-317540547737539 * 10 ^ 99 : ℤ) : ℝ) * s +
    ((105446894155935 * 10 ^ 99 : ℤ) : ℝ) * (3 * s - 4 * s ^ 3)) / 2e100)| ≤ 0.0033 := by
  obtain ⟨h1, h2⟩ := deg_num
  have k := pure_gen (1.0074 * 1e-9 * deg / 6378.14) (-317540547737539 * 10 ^ 99 / 2e100) (105446894155935 * 10 ^ 99 / 2e100) (-0.043767) 0.014534
    (by rw [abs_le]; norm_num at *; constructor <;> linarith) (by rw [abs_le]; norm_num at *; constructor <;> linarith) s hs ?_
  · push_cast
    convert k using 2
    ring
  · have e : (-0.043767) * s + 0.014534 * (3 * s - 4 * s ^ 3) = s * (-0.000165 - 0.058136 * s ^ 2) := by ring
    rw [e, abs_mul]
    have : |(-0.000165 - 0.058136 * s ^ 2 : ℝ)| ≤ 0.009 := by
      have h3 : |s| ^ 2 ≤ 0.3605 ^ 2 := by gcongr
      rw [sq_abs] at h3
      have := sq_nonneg s
      rw [abs_le]; norm_num at *; constructor <;> linarith
    exact (mul_le_mul hs this (abs_nonneg _) (by norm_num)).trans (by norm_num)

theorem pure_lun (s : ℝ) (hs : |s| ≤ 0.3605) : |1.0048 * 1e-9 * deg / 6378.14 * ((((-200750813226699 * 10 ^ 99 : ℤ) : ℝ) * s +
    ((105567555641078 * 10 ^ 99 : ℤ) : ℝ) * (3 * s - 4 * s ^ 3)) / 2e100)| ≤ 0.0033 := by
  obtain ⟨h1, h2⟩ := deg_num
  have k := pure_gen (1.0048 * 1e-9 * deg / 6378.14) (-200750813226699 * 10 ^ 99 / 2e100) (105567555641078 * 10 ^ 99 / 2e100) (-0.027598) 0.014513
    (by rw [abs_le]; norm_num at *; constructor <;> linarith) (by rw [abs_le]; norm_num at *; constructor <;> linarith) s hs ?_
  · push_cast
    convert k using 2
    ring
  · have e : (-0.027598) * s + 0.014513 * (3 * s - 4 * s ^ 3) = 0.015941 * s - 0.058052 * s ^ 3 := by ring
    rw [e]
    obtain ⟨a, b⟩ := abs_le.1 hs
    rw [abs_le]
    norm_num at *
    constructor
    · nlinarith [mul_nonneg (show 0 ≤ 0.6052 - s by linarith) (sq_nonneg (s + 0.3026))]
    · nlinarith [mul_nonneg (show 0 ≤ 0.6052 + s by linarith) (sq_nonneg (s - 0.3026))]

open Verif.Model.Eclipse in
theorem solar_some {year : ℝ} (hk : |Moonphase.snap year 0| ≤ 37000) (hs : (Solar year).kind ≠ .None) :
    ¬ |sin (argF (Moonphase.snap year 0 * Moonphase.ck))| > 0.36 ∧ |axis (Moonphase.snap year 0)| ≤ 1.6 := by
  have h := C59_kind year hk
  obtain ⟨u1, u2⟩ := umbra_bd _ hk
  have l : |axis (Moonphase.snap year 0)| ≤ 1.5433 + umbra (Moonphase.snap year 0) := by
    by_contra hc
    refine hs (h.trans ?_)
    unfold Verif.Spec.Eclipse.solarKind Verif.Spec.Eclipse.earthDisc
    rw [if_pos (by norm_num at *; linarith)]
  constructor
  · intro hF
    have := C94_no_eclipse_missed _ hk hF
    norm_num at *; linarith
  · norm_num at *; linarith

open Verif.Model.Eclipse in
theorem lunar_some {year : ℝ} (hk : |Moonphase.snap year 0.5| ≤ 37000) (hs : (Lunar year).kind ≠ .None) :
    ¬ |sin (argF (Moonphase.snap year 0.5 * Moonphase.ck))| > 0.36 ∧ |axis (Moonphase.snap year 0.5)| ≤ 1.6 := by
  have h := C58_kind year hk
  obtain ⟨u1, u2⟩ := umbra_bd _ hk
  have l : |axis (Moonphase.snap year 0.5)| ≤ 1.5573 + umbra (Moonphase.snap year 0.5) := by
    by_contra hc
    refine hs (h.trans ?_)
    unfold Verif.Spec.Eclipse.lunarKind Verif.Spec.Eclipse.moonDisc
    rw [if_neg (by norm_num at *; linarith), if_neg (by norm_num at *; linarith), if_neg (by norm_num at *; linarith)]
  constructor
  · intro hF
    have := C94_no_eclipse_missed _ hk hF
    norm_num at *; linarith
  · norm_num at *; linarith

open Verif.Model.Eclipse in
/-- **C182.**  For every solar eclipse of the years 1000 to 3000 the least distance γ of the axis of the shadow from the centre of the Earth, given by `Solar` in equatorial
radii, is 1.0074 Δ sin β within 0.043, Δ and β being the distance, in the same unit, and the latitude of the Moon of package moonposition at the time given by `Solar`;
and that time is the one of the new moon of package moonphase within 0.027 day.  (1.0074 = 1.0048 × 1.0026, for the slope of the path against the ecliptic and for the
finite distance of the Sun.) -/
theorem C182_solar (year : ℝ) (h : |year - 2000| ≤ 1000) (hs : (Solar year).kind ≠ .None) :
    let r := Solar year
    let P := Moonposition.Position r.jmax
    |r.γ - 1.0074 * (P.2.2 / 6378.14) * sin P.2.1| ≤ 0.043 ∧ |r.jmax - Moonphase.New year| ≤ 0.027 := by
  intro r P
  obtain ⟨n, h1, h2⟩ := snap_range2 (y := year) 0 (by norm_num) h
  obtain ⟨hF, hγ⟩ := solar_some (h2.trans (by norm_num)) hs
  obtain ⟨e1, e2⟩ := solar_proj year
  have c1 : (-0.4075 : ℝ) = ((-40750 : ℤ) : ℝ) / 1e5 := by norm_num
  have c2 : (0.1721 : ℝ) = ((17210 : ℤ) : ℝ) / 1e5 := by norm_num
  rw [c1, c2, show Moonphase.MeanNew year = Moonphase.mean (Moonphase.snap year 0 * Moonphase.ck) from rfl] at e1 e2
  constructor
  · have := ecl_gen (D0 := 0) h1 h2 (by ring) (c1 := -40750) (c2 := 17210) sol_cert (fun x hx => col0_ev x hx) 1.0074 (by norm_num) (by norm_num) rho_sol pure_sol hF hγ
    dsimp only at this
    rw [← e1, ← e2] at this
    exact this
  · have e := (phases_eq (Moonphase.snap year 0)).1
    rw [show r.jmax = _ from e1, show Moonphase.New year = Moonphase.newK (Moonphase.snap year 0) from rfl, e]
    exact jmax_gen 0 h2 (c1 := -40750) (c2 := 17210) solC_ok newC dSol 2009 _ (by norm_num [abs_of_pos]) (by decide +kernel) (by decide +kernel) dSol_eq (nfc_new 0 _) hF

open Verif.Model.Eclipse in
/-- **C182.**  The same for lunar eclipses and the axis of the shadow of the Earth: γ is 1.0048 Δ sin β within 0.043, and the time that of the full moon within 0.027 day. -/
theorem C182_lunar (year : ℝ) (h : |year - 2000| ≤ 1000) (hs : (Lunar year).kind ≠ .None) :
    let r := Lunar year
    let P := Moonposition.Position r.jmax
    |r.γ - 1.0048 * (P.2.2 / 6378.14) * sin P.2.1| ≤ 0.043 ∧ |r.jmax - Moonphase.Full year| ≤ 0.027 := by
  intro r P
  obtain ⟨n, h1, h2⟩ := snap_range2 (y := year) 0.5 (by norm_num [abs_of_pos]) h
  obtain ⟨hF, hγ⟩ := lunar_some (h2.trans (by norm_num)) hs
  obtain ⟨e1, e2⟩ := lunar_proj year
  have c1 : (-0.4065 : ℝ) = ((-40650 : ℤ) : ℝ) / 1e5 := by norm_num
  have c2 : (0.1727 : ℝ) = ((17270 : ℤ) : ℝ) / 1e5 := by norm_num
  rw [c1, c2, show Moonphase.MeanFull year = Moonphase.mean (Moonphase.snap year 0.5 * Moonphase.ck) from rfl] at e1 e2
  constructor
  · have := ecl_gen (D0 := π) h1 h2 (by ring) (c1 := -40650) (c2 := 17270) lun_cert (fun x hx => col2_ev x (by rw [hx, Complex.exp_pi_mul_I])) 1.0048 (by norm_num) (by norm_num)
      rho_lun pure_lun hF hγ
    dsimp only at this
    rw [← e1, ← e2] at this
    exact this
  · have e := (phases_eq (Moonphase.snap year 0.5)).2.2.1
    rw [show r.jmax = _ from e1, show Moonphase.Full year = Moonphase.fullK (Moonphase.snap year 0.5) from rfl, e]
    exact jmax_gen π h2 (c1 := -40650) (c2 := 17270) lunC_ok fullC dLun 2013 _ (by norm_num [abs_of_pos]) (by decide +kernel) (by decide +kernel) dLun_eq (nfc_full π _) hF

open Verif.Model.Eclipse in
theorem axis_small {k : ℝ} (hk : |k| ≤ 12370) (hs : |sin (argF (k * Moonphase.ck))| ≤ 0.15) : |axis k| ≤ 1.25 := by
  obtain ⟨d0, d1⟩ := deg_small
  rw [axis_axisS 0 k]
  have hT : |k * Moonphase.ck| ≤ 10.0013 := by
    rw [show k * Moonphase.ck = k / 1236.85 by unfold Moonphase.ck; ring, abs_div, abs_of_pos (by norm_num : (0 : ℝ) < 1236.85), div_le_iff₀ (by norm_num)]
    exact hk.trans (by norm_num)
  have hE0 : |(ept 0 k).E| ≤ 1.03 := by
    have := ecc_one (T := k * Moonphase.ck) (hT.trans (by norm_num))
    have e : (ept 0 k).E = Moonposition.ecc (k * Moonphase.ck) := rfl
    rw [e]; rw [abs_le] at *; norm_num at *; constructor <;> linarith
  have l := abs_sin_sub_sin_le (ept 0 k).F (argF (k * Moonphase.ck))
  have e : (ept 0 k).F - argF (k * Moonphase.ck) = -(0.02665 * deg * sin (argΩ (k * Moonphase.ck))) := by
    show argF (k * Moonphase.ck) - 0.02665 * deg * sin (argΩ (k * Moonphase.ck)) - argF (k * Moonphase.ck) = _
    ring
  rw [e, abs_neg, abs_mul (0.02665 * deg), abs_of_pos (show 0 < 0.02665 * deg by positivity)] at l
  have l2 : |sin (ept 0 k).F - sin (argF (k * Moonphase.ck))| ≤ 0.02665 * 0.0174533 :=
    l.trans ((mul_le_of_le_one_right (by positivity) (abs_sin_le_one _)).trans (mul_le_mul_of_nonneg_left d1 (by norm_num)))
  have l3 := abs_sub_abs_le_abs_sub (sin (ept 0 k).F) (sin (argF (k * Moonphase.ck)))
  have l5 : |sin (ept 0 k).F| ≤ 0.1506 := by norm_num at *; linarith
  have up : ∀ {p : ℕ} {m : ℕ} (c : ℝ), 0 ≤ c → p ≤ m → c * (p : ℝ) ≤ c * m := by
    intro p m c hc h
    have : (p : ℝ) ≤ m := by exact_mod_cast h
    gcongr
  have a3 := (sinS_abs (ept 0 k) eclP hE0 p_e).trans (up _ (by norm_num) p_l1)
  have a4 := (cosS_abs (ept 0 k) eclQ hE0 q_e).trans (up _ (by norm_num) q_l1)
  have b1 : |axisS (ept 0 k)| ≤ 1.061 * (2860 : ℕ) * 1 + 1.061 * (55675 : ℕ) * 0.1506 := by
    unfold axisS
    refine (abs_add_le _ _).trans ?_
    rw [abs_mul, abs_mul]
    exact add_le_add (mul_le_mul a3 (abs_cos_le_one _) (abs_nonneg _) (by norm_num)) (mul_le_mul a4 l5 (abs_nonneg _) (by norm_num))
  have b2 : |1 - 0.0048 * (|cos (ept 0 k).F|)| ≤ 1 := by
    have c1 := abs_cos_le_one (ept 0 k).F
    have c2 := abs_nonneg (cos (ept 0 k).F)
    rw [abs_le]; constructor <;> norm_num <;> linarith
  rw [abs_mul, abs_mul, abs_of_pos (by norm_num : (0 : ℝ) < 1e-4)]
  refine (mul_le_mul (mul_le_mul_of_nonneg_left b1 (by norm_num)) b2 (abs_nonneg _) (by norm_num)).trans (by norm_num)

open Verif.Model.Eclipse in
/-- The hypotheses of C182 are met: the solar eclipse of 21 June 2001 (lunation 18) and the lunar eclipse of 21 January 2000 (lunation 1/2). -/
theorem C182_example : (Solar 2001.47).kind ≠ .None ∧ (Lunar 2000).kind ≠ .None := by
  obtain ⟨d1, d2⟩ := deg_num
  have near : ∀ (x : ℝ) (n : ℤ), |x - n * (2 * π)| ≤ 0.13 → |sin x| ≤ 0.15 := by
    intro x n h
    rw [← sin_sub_int_mul_two_pi x n]
    exact (abs_sin_le_abs.trans h).trans (by norm_num)
  have e : 2 * π = 360 * deg := by unfold deg; ring
  constructor
  · have s : Moonphase.snap 2001.47 0 = 18 := by
      unfold Moonphase.snap
      have : ⌊((2001.47 : ℝ) - 2000) * 12.3685 - 0 + 0.5⌋ = 18 := by rw [Int.floor_eq_iff]; norm_num
      rw [this]; norm_num
    have hk : |Moonphase.snap 2001.47 0| ≤ 12370 := by rw [s]; norm_num
    have a := axis_small hk (by
      rw [s]
      refine near _ 20 ?_
      rw [e]
      unfold argF Moonphase.ck
      simp only [hornerR, List.foldr_cons, List.foldr_nil]
      rw [abs_le]; norm_num at *
      constructor <;> linarith)
    obtain ⟨u1, u2⟩ := umbra_bd _ (hk.trans (by norm_num))
    rw [C59_kind _ (hk.trans (by norm_num))]
    unfold Verif.Spec.Eclipse.solarKind Verif.Spec.Eclipse.earthDisc
    rw [if_neg (by norm_num at *; linarith)]
    split_ifs <;> simp
  · have s := C58_example.1
    have hk : |Moonphase.snap 2000 0.5| ≤ 12370 := by rw [s, abs_of_pos] <;> norm_num
    have a := axis_small hk (by
      rw [s]
      refine near _ 1 ?_
      rw [e]
      unfold argF Moonphase.ck
      simp only [hornerR, List.foldr_cons, List.foldr_nil]
      rw [abs_le]; norm_num at *
      constructor <;> linarith)
    obtain ⟨u1, u2⟩ := umbra_bd _ (hk.trans (by norm_num))
    rw [C58_kind _ (hk.trans (by norm_num))]
    unfold Verif.Spec.Eclipse.lunarKind Verif.Spec.Eclipse.moonDisc
    split_ifs with h1 h2 h3
    · simp
    · simp
    · simp
    · exfalso; norm_num at *; linarith

end Verif.Props
