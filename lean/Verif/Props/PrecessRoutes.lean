import Verif.Props.PrecessCert
import Verif.Props.Precess
import Verif.Model.PlanetPos
/-
C178: precession there and back, and through 2000.  C179: equatorial and ecliptic precession with the obliquities of the two epochs.
-/
namespace Verif.Props

open Real Verif.Spec Verif.Go Verif.Model Verif.Model.Precess Verif.Lemmas Verif.Lemmas.TM

/-! ### Exact inverse -/

theorem rotY_rotY (a b : ℝ) (v : V3) : rotY a (rotY b v) = rotY (a + b) v := by
  rw [vec_self v, rotY_vec, rotY_vec, rotY_vec, cos_add, sin_add]
  apply vec_eq <;> ring

theorem rotZ_zero (v : V3) : rotZ 0 v = v := by
  conv_rhs => rw [vec_self v]
  unfold rotZ; simp

theorem rotY_zero (v : V3) : rotY 0 v = v := by
  conv_rhs => rw [vec_self v]
  unfold rotY; simp

/-- The angles of the way back are those of the way there, exchanged and with opposite signs. -/
theorem precAngles_back (e1 e2 : ℝ) :
    precAngles e2 e1 = (-(precAngles e1 e2).2.1, -(precAngles e1 e2).1, -(precAngles e1 e2).2.2) := by
  rw [C51_angles, C51_angles]
  refine Prod.ext ?_ (Prod.ext ?_ ?_) <;> (dsimp only; ring)

/-- **C178.**  Precession from one epoch to another and back returns every star off the poles to its place, exactly. -/
theorem C178_there_and_back (e1 e2 α δ : ℝ) (hδ : |δ| < π / 2) :
    precessVal (NewPrecessor e2 e1) (precessVal (NewPrecessor e1 e2) ⟨α, δ⟩) = ⟨mod1 α, δ⟩ := by
  obtain ⟨q, hq⟩ : ∃ q, q = precessVal (NewPrecessor e1 e2) ⟨α, δ⟩ := ⟨_, rfl⟩
  have h1 := C51_rotation e1 e2 α δ
  have h2 := C51_rotation e2 e1 q.RA q.Dec
  dsimp only at h1 h2
  rw [← hq] at h1
  rw [h1, precAngles_back] at h2
  dsimp only at h2
  rw [rotZ_rotZ, neg_add_cancel, rotZ_zero, rotY_rotY, show - -(precAngles e1 e2).2.2 + -(precAngles e1 e2).2.2 = 0 by ring, rotY_zero,
    rotZ_rotZ, neg_add_cancel, rotZ_zero] at h2
  rw [← hq]
  obtain ⟨r0, r1, r2⟩ := C51_range e2 e1 q.RA q.Dec
  obtain ⟨i1, i2⟩ := dir_inj hδ r2 h2.symm
  rw [mod1_of_mem r0 r1] at i2
  ext1
  · exact i2.symm
  · exact i1.symm

/-! ### Enclosures -/

/-- The vector of three expressions. -/
noncomputable def vv (ρ : ℕ → ℝ → ℝ → ℝ) (v : Ex3) (x y : ℝ) : V3 := !₂[v.1.val ρ x y, v.2.1.val ρ x y, v.2.2.val ρ x y]

theorem vv_rz {ρ : ℕ → ℝ → ℝ → ℝ} {s c : Ex} {a x y : ℝ} (hs : s.val ρ x y = sin a) (hc : c.val ρ x y = cos a) (v : Ex3) :
    vv ρ (Ex3.rz s c v) x y = rotZ a (vv ρ v x y) := by
  unfold vv; rw [rotZ_vec]; simp only [Ex3.rz, Ex.val_sub, Ex.val, hs, hc]

theorem vv_rx {ρ : ℕ → ℝ → ℝ → ℝ} {s c : Ex} {a x y : ℝ} (hs : s.val ρ x y = sin a) (hc : c.val ρ x y = cos a) (v : Ex3) :
    vv ρ (Ex3.rx s c v) x y = rotX a (vv ρ v x y) := by
  unfold vv; rw [rotX_vec]; simp only [Ex3.rx, Ex.val_sub, Ex.val, hs, hc]

theorem vv_ry {ρ : ℕ → ℝ → ℝ → ℝ} {s c : Ex} {a x y : ℝ} (hs : s.val ρ x y = sin a) (hc : c.val ρ x y = cos a) (v : Ex3) :
    vv ρ (Ex3.ry s c v) x y = rotY a (vv ρ v x y) := by
  unfold vv; rw [rotY_vec]
  apply vec_eq <;> simp only [Ex3.ry, Ex.val_sub, Ex.val, hs, hc]
  ring

theorem vv_sub (ρ : ℕ → ℝ → ℝ → ℝ) (v w : Ex3) (x y : ℝ) : vv ρ (v.sub w) x y = vv ρ v x y - vv ρ w x y := by
  unfold vv
  ext i; fin_cases i <;> simp [Ex3.sub, Ex.val_sub]

theorem norm_vv {ρ : ℕ → ℝ → ℝ → ℝ} {σ : ℕ → TM.M} (hσ : ∀ i, Holds (σ i) (ρ i)) {v : Ex3} (h : v.ok σ = true) {x y : ℝ} (hx : |x| ≤ 1)
    (hy : |y| ≤ 1) : (TM.S * ‖vv ρ v x y‖) ^ 2 ≤ v.bd σ := by
  simp only [Ex3.ok, Bool.and_eq_true] at h
  have k : ∀ e : Ex, e.ok σ = true → ((TM.S : ℝ) * e.val ρ x y) ^ 2 ≤ (((e.tm σ).bd ^ 2 : ℤ) : ℝ) := fun e he => by
    have := (Ex.holds hσ he).bd hx hy
    push_cast
    exact sq_le_sq' (abs_le.1 this).1 (abs_le.1 this).2
  have h1 := k _ h.1.1
  have h2 := k _ h.1.2
  have h3 := k _ h.2
  have e : ‖vv ρ v x y‖ ^ 2 = v.1.val ρ x y ^ 2 + v.2.1.val ρ x y ^ 2 + v.2.2.val ρ x y ^ 2 := by
    unfold vv
    rw [← real_inner_self_eq_norm_sq, inner_vec]; ring
  rw [mul_pow, e]
  unfold Ex3.bd
  push_cast at *
  linarith

/-- Maps which keep sums and multiples. -/
def Lin (f : V3 → V3) : Prop := ∀ (a b : ℝ) (u v : V3), f (a • u + b • v) = a • f u + b • f v

theorem lin_rotZ (c : ℝ) : Lin (rotZ c) := fun a b u v => by
  unfold rotZ; ext i; fin_cases i <;> simp <;> ring
theorem lin_rotX (c : ℝ) : Lin (rotX c) := fun a b u v => by
  unfold rotX; ext i; fin_cases i <;> simp <;> ring
theorem lin_rotY (c : ℝ) : Lin (rotY c) := fun a b u v => by
  unfold rotY; ext i; fin_cases i <;> simp <;> ring
theorem lin_id : Lin (fun v => v) := fun _ _ _ _ => rfl
theorem Lin.comp {f g : V3 → V3} (hf : Lin f) (hg : Lin g) : Lin (fun v => f (g v)) := fun a b u v => by
  dsimp only; rw [hg, hf]

theorem Lin.basis {f : V3 → V3} (h : Lin f) (v : V3) : f v = v 0 • f !₂[1, 0, 0] + v 1 • f !₂[0, 1, 0] + v 2 • f !₂[0, 0, 1] := by
  have e : v = (1 : ℝ) • (v 0 • !₂[1, 0, 0] + v 1 • !₂[0, 1, 0]) + v 2 • !₂[0, 0, 1] := by
    ext i; fin_cases i <;> simp
  conv_lhs => rw [e, h, h]
  rw [one_smul]

/-- Two maps near each other on the axes are near each other on all directions. -/
theorem lin_close {f g : V3 → V3} (hf : Lin f) (hg : Lin g) {q0 q1 q2 : ℝ}
    (h0 : ‖f !₂[1, 0, 0] - g !₂[1, 0, 0]‖ ^ 2 ≤ q0) (h1 : ‖f !₂[0, 1, 0] - g !₂[0, 1, 0]‖ ^ 2 ≤ q1) (h2 : ‖f !₂[0, 0, 1] - g !₂[0, 0, 1]‖ ^ 2 ≤ q2)
    (r d : ℝ) : ‖f (dir r d) - g (dir r d)‖ ^ 2 ≤ q0 + q1 + q2 := by
  rw [hf.basis (dir r d), hg.basis (dir r d)]
  generalize f !₂[1, 0, 0] = f0 at *
  generalize f !₂[0, 1, 0] = f1 at *
  generalize f !₂[0, 0, 1] = f2 at *
  generalize g !₂[1, 0, 0] = g0 at *
  generalize g !₂[0, 1, 0] = g1 at *
  generalize g !₂[0, 0, 1] = g2 at *
  have hn : (dir r d) 0 ^ 2 + (dir r d) 1 ^ 2 + (dir r d) 2 ^ 2 = 1 := by
    have := norm_dir r d
    have h : ‖dir r d‖ ^ 2 = 1 := by rw [this]; norm_num
    rw [← real_inner_self_eq_norm_sq] at h
    rw [vec_self (dir r d), inner_vec] at h
    linarith
  generalize (dir r d) 0 = a at *
  generalize (dir r d) 1 = b at *
  generalize (dir r d) 2 = c at *
  have e : a • f0 + b • f1 + c • f2 - (a • g0 + b • g1 + c • g2) = a • (f0 - g0) + b • (f1 - g1) + c • (f2 - g2) := by
    rw [smul_sub, smul_sub, smul_sub]; abel
  rw [e]
  have t : ‖a • (f0 - g0) + b • (f1 - g1) + c • (f2 - g2)‖ ≤ |a| * ‖f0 - g0‖ + |b| * ‖f1 - g1‖ + |c| * ‖f2 - g2‖ := by
    refine (norm_add_le _ _).trans (add_le_add ((norm_add_le _ _).trans (add_le_add ?_ ?_)) ?_) <;> rw [norm_smul, Real.norm_eq_abs]
  have t2 := pow_le_pow_left₀ (norm_nonneg _) t 2
  refine t2.trans ?_
  rw [← sq_abs a, ← sq_abs b, ← sq_abs c] at hn
  generalize ‖f0 - g0‖ = u at *
  generalize ‖f1 - g1‖ = v at *
  generalize ‖f2 - g2‖ = w at *
  generalize |a| = a at *
  generalize |b| = b at *
  generalize |c| = c at *
  have : (a * u + b * v + c * w) ^ 2 ≤ (a ^ 2 + b ^ 2 + c ^ 2) * (u ^ 2 + v ^ 2 + w ^ 2) := by
    nlinarith [sq_nonneg (a * v - b * u), sq_nonneg (a * w - c * u), sq_nonneg (b * w - c * v)]
  rw [hn, one_mul] at this
  linarith

/-- The separation of near directions. -/
theorem sep_of_chord {r d r' d' D : ℝ} (hD0 : 0 ≤ D) (hD : D ≤ 0.001) (h : ‖dir r d - dir r' d'‖ ^ 2 ≤ D ^ 2) : sep r d r' d' ≤ 1.000001 * D := by
  have h1 : inner ℝ (dir r d) (dir r' d') = 1 - ‖dir r d - dir r' d'‖ ^ 2 / 2 := by
    rw [norm_sub_sq_real, norm_dir, norm_dir]; ring
  have h2 : sep r d r' d' = arccos (inner ℝ (dir r d) (dir r' d')) := by rw [sep_eq, inner_dir]
  rw [h2, h1]
  have hK : 1.000001 * D ≤ 1 := by norm_num at *; linarith
  have hb := cos_bound (x := 1.000001 * D) (by rw [abs_of_nonneg (by positivity)]; exact hK)
  have : cos (1.000001 * D) ≤ 1 - ‖dir r d - dir r' d'‖ ^ 2 / 2 := by
    have := (abs_le.1 hb).2
    rw [abs_of_nonneg (show 0 ≤ 1.000001 * D by positivity)] at this
    have e : (1.000001 * D) ^ 4 * (5 / 96) ≤ 1e-7 * D ^ 2 := by
      have e4 : (1.000001 * D) ^ 4 * (5 / 96) = 1.000001 ^ 4 * (5 / 96) * D ^ 2 * D ^ 2 := by ring
      have : D ^ 2 ≤ 1e-6 := by norm_num at *; nlinarith
      rw [e4]
      have := sq_nonneg D
      generalize D ^ 2 = q at *
      norm_num at *
      nlinarith
    have e2 : (1.000001 * D) ^ 2 = 1.000001 ^ 2 * D ^ 2 := by ring
    rw [e2] at this
    have := sq_nonneg D
    generalize D ^ 2 = q at *
    norm_num at *
    linarith
  calc arccos (1 - ‖dir r d - dir r' d'‖ ^ 2 / 2) ≤ arccos (cos (1.000001 * D)) := by
        apply Real.arccos_le_arccos; exact this
    _ = 1.000001 * D := arccos_cos (by positivity) (by linarith [pi_gt_three])

/-! ### The angles of precession as expressions -/

noncomputable def rotE (e1 e2 : ℝ) (v : V3) : V3 := rotZ (precAngles e1 e2).2.1 (rotY (-(precAngles e1 e2).2.2) (rotZ (precAngles e1 e2).1 v))
noncomputable def rotL (e1 e2 : ℝ) (v : V3) : V3 :=
  rotZ ((eclAngles e1 e2).2.1 + (eclAngles e1 e2).2.2) (rotX (-(eclAngles e1 e2).1) (rotZ (-(eclAngles e1 e2).2.1) v))

theorem lin_rotE (e1 e2 : ℝ) : Lin (rotE e1 e2) := (lin_rotZ _).comp ((lin_rotY _).comp (lin_rotZ _))
theorem lin_rotL (e1 e2 : ℝ) : Lin (rotL e1 e2) := (lin_rotZ _).comp ((lin_rotX _).comp (lin_rotZ _))

theorem vv_xE {ρ : ℕ → ℝ → ℝ → ℝ} {i : ℕ} {T t : Ex} {x y e1 e2 : ℝ} (hT : T.val ρ0 x y = (e1 - 2000) / 100) (ht : t.val ρ0 x y = (e2 - e1) / 100)
    (hρ : ∀ n, n < 6 → ρ (2 * i + n) x y = ρL (aE T t) n x y) (v : Ex3) : vv ρ (xE i v) x y = rotE e1 e2 (vv ρ v x y) := by
  have a : ((xζ T t).val ρ0 x y, (xz T t).val ρ0 x y, (xθ T t).val ρ0 x y) = precAngles e1 e2 := by
    rw [C51_angles, ← hT, ← ht]
    simp only [xζ, xz, xθ, form, xsec, Ex.val]
    push_cast
    refine Prod.ext ?_ (Prod.ext ?_ ?_) <;> (dsimp only; ring)
  unfold xE rotE
  rw [← a]
  have h0 : (Ex.atom (2 * i + 0)).val ρ x y = sin ((xζ T t).val ρ0 x y) := hρ 0 (by norm_num)
  have h1 : (Ex.atom (2 * i + 1)).val ρ x y = cos ((xζ T t).val ρ0 x y) := hρ 1 (by norm_num)
  have h2 : (Ex.atom (2 * i + 2)).val ρ x y = sin ((xz T t).val ρ0 x y) := hρ 2 (by norm_num)
  have h3 : (Ex.atom (2 * i + 3)).val ρ x y = cos ((xz T t).val ρ0 x y) := hρ 3 (by norm_num)
  have h4 : (Ex.atom (2 * i + 4)).val ρ x y = sin ((xθ T t).val ρ0 x y) := hρ 4 (by norm_num)
  have h5 : (Ex.atom (2 * i + 5)).val ρ x y = cos ((xθ T t).val ρ0 x y) := hρ 5 (by norm_num)
  rw [vv_rz h2 h3, vv_ry (a := -(xθ T t).val ρ0 x y) (by rw [Ex.val_neg, sin_neg, h4]) (by rw [cos_neg, h5])]
  congr 2
  exact vv_rz h0 h1 v

theorem rotX_conj_pi (a : ℝ) (v : V3) : rotZ π (rotX (-a) (rotZ (-π) v)) = rotX a v := by
  rw [vec_self v, rotZ_vec, rotX_vec, rotZ_vec, rotX_vec]
  simp
  ring

theorem vv_xL {ρ : ℕ → ℝ → ℝ → ℝ} {i : ℕ} {T t : Ex} {x y e1 e2 : ℝ} (hT : T.val ρ0 x y = (e1 - 2000) / 100) (ht : t.val ρ0 x y = (e2 - e1) / 100)
    (hρ : ∀ n, n < 6 → ρ (2 * i + n) x y = ρL (aL T t) n x y) (v : Ex3) : vv ρ (xL i v) x y = rotL e1 e2 (vv ρ v x y) := by
  have a : ((xη T t).val ρ0 x y, (xn T t).val ρ0 x y + π, (xp T t).val ρ0 x y) = eclAngles e1 e2 := by
    rw [C83_angles, ← hT, ← ht]
    simp only [xη, xn, xp, form, xsec, Ex.val]
    push_cast
    refine Prod.ext ?_ (Prod.ext ?_ ?_) <;> (dsimp only; ring)
  unfold xL rotL
  rw [← a]
  have h0 : (Ex.atom (2 * i + 0)).val ρ x y = sin ((xn T t).val ρ0 x y) := hρ 0 (by norm_num)
  have h1 : (Ex.atom (2 * i + 1)).val ρ x y = cos ((xn T t).val ρ0 x y) := hρ 1 (by norm_num)
  have h2 : (Ex.atom (2 * i + 2)).val ρ x y = sin ((Ex.add (xn T t) (xp T t)).val ρ0 x y) := hρ 2 (by norm_num)
  have h3 : (Ex.atom (2 * i + 3)).val ρ x y = cos ((Ex.add (xn T t) (xp T t)).val ρ0 x y) := hρ 3 (by norm_num)
  have h4 : (Ex.atom (2 * i + 4)).val ρ x y = sin ((xη T t).val ρ0 x y) := hρ 4 (by norm_num)
  have h5 : (Ex.atom (2 * i + 5)).val ρ x y = cos ((xη T t).val ρ0 x y) := hρ 5 (by norm_num)
  have hv := vv_rz (a := -(xn T t).val ρ0 x y) (s := (Ex.atom (2 * i)).neg) (c := .atom (2 * i + 1)) (by rw [Ex.val_neg, sin_neg]; congr 1)
    (by rw [cos_neg, h1]) v
  rw [vv_rz h2 h3, vv_rx h4 h5, hv]
  · dsimp only [Ex.val]
    rw [show (xn T t).val ρ0 x y + π + (xp T t).val ρ0 x y = ((xn T t).val ρ0 x y + (xp T t).val ρ0 x y) + π by ring, ← rotZ_rotZ _ π,
      show -((xn T t).val ρ0 x y + π) = -π + -(xn T t).val ρ0 x y by ring, ← rotZ_rotZ (-π), rotX_conj_pi]

theorem chk_close {ρ : ℕ → ℝ → ℝ → ℝ} {σ : ℕ → TM.M} (hσ : ∀ i, Holds (σ i) (ρ i)) {f g : V3 → V3} {xf xg : Ex3 → Ex3} {B : ℤ} (hf : Lin f)
    (hg : Lin g) {x y : ℝ} (hx : |x| ≤ 1) (hy : |y| ≤ 1)
    (vf : ∀ v, vv ρ (xf v) x y = f (vv ρ v x y)) (vg : ∀ v, vv ρ (xg v) x y = g (vv ρ v x y)) (h : chk σ xf xg B = true) (r d : ℝ) :
    ‖f (dir r d) - g (dir r d)‖ ^ 2 ≤ ((B : ℝ) / TM.S) ^ 2 := by
  simp only [chk, Bool.and_eq_true, decide_eq_true_eq] at h
  obtain ⟨⟨⟨h0, h1⟩, h2⟩, hB⟩ := h
  have k : ∀ e : Ex3, ((xf e).sub (xg e)).ok σ = true → ‖f (vv ρ e x y) - g (vv ρ e x y)‖ ^ 2 ≤ (((xf e).sub (xg e)).bd σ : ℝ) / TM.S ^ 2 :=
      fun e he => by
    have := norm_vv hσ he hx hy
    rw [vv_sub, vf, vg, mul_pow] at this
    rw [le_div_iff₀ (pow_pos TM.S_pos 2), mul_comm]; exact this
  have z0 : vv ρ Ex3.e0 x y = !₂[1, 0, 0] := by unfold vv Ex3.e0; simp [Ex.val]
  have z1 : vv ρ Ex3.e1 x y = !₂[0, 1, 0] := by unfold vv Ex3.e1; simp [Ex.val]
  have z2 : vv ρ Ex3.e2 x y = !₂[0, 0, 1] := by unfold vv Ex3.e2; simp [Ex.val]
  have k0 := k _ h0
  have k1 := k _ h1
  have k2 := k _ h2
  rw [z0] at k0
  rw [z1] at k1
  rw [z2] at k2
  refine (lin_close hf hg k0 k1 k2 r d).trans ?_
  rw [← add_div, ← add_div, div_pow]
  have : ((((xf Ex3.e0).sub (xg Ex3.e0)).bd σ : ℝ) + ((xf Ex3.e1).sub (xg Ex3.e1)).bd σ + ((xf Ex3.e2).sub (xg Ex3.e2)).bd σ) ≤ (B : ℝ) ^ 2 := by
    exact_mod_cast hB
  gcongr

theorem epochs {k : ℤ} (hk : 0 < k) {e : ℝ} (h : |e - 2000| ≤ 100 * k) : |(e - 2000) / (100 * k)| ≤ 1 := by
  have : (0 : ℝ) < k := by exact_mod_cast hk
  rw [abs_div, abs_of_pos (show (0 : ℝ) < 100 * k by positivity)]
  exact div_le_one_of_le₀ h (by positivity)

theorem xT_val {k : ℤ} (hk : 0 < k) (e1 e2 : ℝ) :
    (xT k).val ρ0 ((e1 - 2000) / (100 * k)) ((e2 - 2000) / (100 * k)) = (e1 - 2000) / 100 ∧
    (xT' k).val ρ0 ((e1 - 2000) / (100 * k)) ((e2 - 2000) / (100 * k)) = (e2 - 2000) / 100 ∧
    (xt k).val ρ0 ((e1 - 2000) / (100 * k)) ((e2 - 2000) / (100 * k)) = (e2 - e1) / 100 := by
  have : (k : ℝ) ≠ 0 := by exact_mod_cast hk.ne'
  refine ⟨?_, ?_, ?_⟩
  · simp only [xT, Ex.val]; push_cast; field_simp
  · simp only [xT', Ex.val]; push_cast; field_simp
  · simp only [xt, Ex.val_sub, xT, xT', Ex.val]; push_cast; field_simp; ring

/-! ### Theorems -/

theorem sep_of_units {r d r' d' b : ℝ} {B : ℤ} (hB : (B : ℝ) / TM.S ≤ b * (100 / 20626481) / 1.000001) (hb0 : 0 ≤ b) (hB0 : 0 ≤ B) (hB1 : (B : ℝ) / TM.S ≤ 0.001)
    (h : ‖dir r d - dir r' d'‖ ^ 2 ≤ ((B : ℝ) / TM.S) ^ 2) : sep r d r' d' ≤ b * (π / 180 / 3600) := by
  have h0 : (0 : ℝ) ≤ (B : ℝ) / TM.S := div_nonneg (by exact_mod_cast hB0) TM.S_pos.le
  have h1 := sep_of_chord h0 hB1 h
  have h2 : (100 : ℝ) / 20626481 ≤ π / 180 / 3600 := by
    have := pi_gt_d20
    norm_num at *
    linarith
  have h3 : 1.000001 * ((B : ℝ) / TM.S) ≤ b * (100 / 20626481) := by
    rw [le_div_iff₀ (by norm_num)] at hB
    linarith
  exact h1.trans (h3.trans (mul_le_mul_of_nonneg_left h2 hb0))

theorem dir_precess (e1 e2 : ℝ) (q : Equatorial ℝ) :
    dir (precessVal (NewPrecessor e1 e2) q).RA (precessVal (NewPrecessor e1 e2) q).Dec = rotE e1 e2 (dir q.RA q.Dec) := C51_rotation e1 e2 q.RA q.Dec

theorem dir_eclPrecess (e1 e2 : ℝ) (q : Ecliptic ℝ) :
    dir (eclPrecessVal (NewEclipticPrecessor e1 e2) q).Lon (eclPrecessVal (NewEclipticPrecessor e1 e2) q).Lat = rotL e1 e2 (dir q.Lon q.Lat) :=
  C83_ecliptic_rotation e1 e2 q.Lon q.Lat

section
variable {e1 e2 : ℝ} (h1 : |e1 - 2000| ≤ 200) (h2 : |e2 - 2000| ≤ 200)
include h1 h2

/-- **C178.**  Between epochs of 1800–2200, ecliptic precession and back returns every direction to within 0.00025″. -/
theorem C178_ecliptic_there_and_back (l β : ℝ) :
    let q := eclPrecessVal (NewEclipticPrecessor e2 e1) (eclPrecessVal (NewEclipticPrecessor e1 e2) ⟨l, β⟩)
    sep q.Lon q.Lat l β ≤ 0.00025 * (π / 180 / 3600) := by
  intro q
  have hx := epochs (k := 2) (by norm_num) (e := e1) (by norm_num; exact h1)
  have hy := epochs (k := 2) (by norm_num) (e := e2) (by norm_num; exact h2)
  obtain ⟨v1, v2, v3⟩ := xT_val (k := 2) (by norm_num) e1 e2
  refine sep_of_units (B := kBb) (by norm_num [kBb, TM.S]) (by norm_num) (by decide) (by norm_num [kBb, TM.S]) ?_
  have hq : dir q.Lon q.Lat = rotL e2 e1 (rotL e1 e2 (dir l β)) := by rw [dir_eclPrecess, dir_eclPrecess]
  rw [hq]
  refine chk_close (ρ := ρL (angB 2)) (σ := σL litB) (f := fun v => rotL e2 e1 (rotL e1 e2 v)) (g := fun v => v) (holdsL _ _ rfl caB)
    ((lin_rotL _ _).comp (lin_rotL _ _)) lin_id hx hy (fun v => ?_) (fun v => rfl) kB l β
  rw [vv_xL (T := xT' 2) (t := (xt 2).neg) (e1 := e2) (e2 := e1) v2 (by rw [Ex.val_neg, v3]; ring) (fun n hn => by interval_cases n <;> rfl),
    vv_xL (T := xT 2) (t := xt 2) v1 v3 (fun n hn => by interval_cases n <;> rfl)]

/-- **C178.**  Between epochs of 1800–2200, ecliptic precession through 2000 is the direct one within 0.0001″. -/
theorem C178_ecliptic_through_2000 (l β : ℝ) :
    let q := eclPrecessVal (NewEclipticPrecessor 2000 e2) (eclPrecessVal (NewEclipticPrecessor e1 2000) ⟨l, β⟩)
    let q' := eclPrecessVal (NewEclipticPrecessor e1 e2) ⟨l, β⟩
    sep q.Lon q.Lat q'.Lon q'.Lat ≤ 0.0001 * (π / 180 / 3600) := by
  intro q q'
  have hx := epochs (k := 2) (by norm_num) (e := e1) (by norm_num; exact h1)
  have hy := epochs (k := 2) (by norm_num) (e := e2) (by norm_num; exact h2)
  obtain ⟨v1, v2, v3⟩ := xT_val (k := 2) (by norm_num) e1 e2
  refine sep_of_units (B := kLb) (by norm_num [kLb, TM.S]) (by norm_num) (by decide) (by norm_num [kLb, TM.S]) ?_
  have hq : dir q.Lon q.Lat = rotL 2000 e2 (rotL e1 2000 (dir l β)) := by rw [dir_eclPrecess, dir_eclPrecess]
  have hq' : dir q'.Lon q'.Lat = rotL e1 e2 (dir l β) := by rw [dir_eclPrecess]
  rw [hq, hq']
  refine chk_close (ρ := ρL (angL 2)) (σ := σL litL) (f := fun v => rotL 2000 e2 (rotL e1 2000 v)) (g := rotL e1 e2) (holdsL _ _ rfl caL)
    ((lin_rotL _ _).comp (lin_rotL _ _)) (lin_rotL _ _) hx hy (fun v => ?_) (fun v => ?_) kL l β
  · rw [vv_xL (T := xz0) (t := xT' 2) (e1 := 2000) (by simp [xz0, Ex.val]) v2 (fun n hn => by interval_cases n <;> rfl),
      vv_xL (T := xT 2) (t := (xT 2).neg) (e2 := 2000) v1 (by rw [Ex.val_neg, v1]; ring) (fun n hn => by interval_cases n <;> rfl)]
  · exact vv_xL (T := xT 2) (t := xt 2) v1 v3 (fun n hn => by interval_cases n <;> rfl) v

/-- **C178.**  Between epochs of 1800–2200, equatorial precession through 2000 is the direct one within 0.0021″. -/
theorem C178_through_2000 (α δ : ℝ) :
    let q := precessVal (NewPrecessor 2000 e2) (precessVal (NewPrecessor e1 2000) ⟨α, δ⟩)
    let q' := precessVal (NewPrecessor e1 e2) ⟨α, δ⟩
    sep q.RA q.Dec q'.RA q'.Dec ≤ 0.0021 * (π / 180 / 3600) := by
  intro q q'
  have hx := epochs (k := 2) (by norm_num) (e := e1) (by norm_num; exact h1)
  have hy := epochs (k := 2) (by norm_num) (e := e2) (by norm_num; exact h2)
  obtain ⟨v1, v2, v3⟩ := xT_val (k := 2) (by norm_num) e1 e2
  refine sep_of_units (B := kEb) (by norm_num [kEb, TM.S]) (by norm_num) (by decide) (by norm_num [kEb, TM.S]) ?_
  have hq : dir q.RA q.Dec = rotE 2000 e2 (rotE e1 2000 (dir α δ)) := by rw [dir_precess, dir_precess]
  have hq' : dir q'.RA q'.Dec = rotE e1 e2 (dir α δ) := by rw [dir_precess]
  rw [hq, hq']
  refine chk_close (ρ := ρL (angE 2)) (σ := σL litE) (f := fun v => rotE 2000 e2 (rotE e1 2000 v)) (g := rotE e1 e2) (holdsL _ _ rfl caE)
    ((lin_rotE _ _).comp (lin_rotE _ _)) (lin_rotE _ _) hx hy (fun v => ?_) (fun v => ?_) kE α δ
  · rw [vv_xE (T := xz0) (t := xT' 2) (e1 := 2000) (by simp [xz0, Ex.val]) v2 (fun n hn => by interval_cases n <;> rfl),
      vv_xE (T := xT 2) (t := (xT 2).neg) (e2 := 2000) v1 (by rw [Ex.val_neg, v1]; ring) (fun n hn => by interval_cases n <;> rfl)]
  · exact vv_xE (T := xT 2) (t := xt 2) v1 v3 (fun n hn => by interval_cases n <;> rfl) v

omit h1 h2 in
/-- The mean obliquity of a Julian epoch. -/
theorem obliquity_epoch (e : ℝ) : Nutation.MeanObliquity (JulianYearToJDE e) =
    (84381.448 + (-46.815 + (-0.00059 + 0.001813 * ((e - 2000) / 100)) * ((e - 2000) / 100)) * ((e - 2000) / 100)) * (π / 180 / 3600) := by
  unfold Nutation.MeanObliquity JulianYearToJDE
  simp only [hornerR, List.foldr_cons, List.foldr_nil, Nutation.sec, J2000Century]
  ring

omit h1 h2 in
theorem dir_EqToEcl (α δ ε : ℝ) (hδ : |δ| < π / 2) : dir (Coord.EqToEcl α δ (sin ε) (cos ε)).1 (Coord.EqToEcl α δ (sin ε) (cos ε)).2 = rotX (-ε) (dir α δ) := by
  rw [C46_eqToEcl_rotation α δ _ _ (sin_sq_add_cos_sq ε) (cos_pos_of_mem_Ioo (abs_lt.1 hδ))]
  unfold dir
  rw [rotX_vec, sin_neg, cos_neg]
  apply vec_eq <;> ring

omit h1 h2 in
theorem dir_EclToEq (l β ε : ℝ) (hβ : |β| < π / 2) : dir (Coord.EclToEq l β (sin ε) (cos ε)).1 (Coord.EclToEq l β (sin ε) (cos ε)).2 = rotX ε (dir l β) := by
  rw [C46_eclToEq_rotation l β _ _ (sin_sq_add_cos_sq ε) (cos_pos_of_mem_Ioo (abs_lt.1 hβ))]
  unfold dir
  rw [rotX_vec]

/-- **C179.**  Between epochs of 1800–2200, precessing a star's equatorial coordinates agrees within 0.003″ with going to the ecliptic of the first
epoch, precessing there, and returning to the equator of the second epoch. -/
theorem C179_routes (α δ : ℝ) (hδ : |δ| < π / 2) :
    let ε1 := Nutation.MeanObliquity (JulianYearToJDE e1)
    let ε2 := Nutation.MeanObliquity (JulianYearToJDE e2)
    let u := Coord.EqToEcl α δ (sin ε1) (cos ε1)
    let w := eclPrecessVal (NewEclipticPrecessor e1 e2) ⟨u.1, u.2⟩
    let q := Coord.EclToEq w.Lon w.Lat (sin ε2) (cos ε2)
    let q' := precessVal (NewPrecessor e1 e2) ⟨α, δ⟩
    |w.Lat| < π / 2 → sep q.1 q.2 q'.RA q'.Dec ≤ 0.003 * (π / 180 / 3600) := by
  intro ε1 ε2 u w q q' hw
  have hx := epochs (k := 2) (by norm_num) (e := e1) (by norm_num; exact h1)
  have hy := epochs (k := 2) (by norm_num) (e := e2) (by norm_num; exact h2)
  obtain ⟨v1, v2, v3⟩ := xT_val (k := 2) (by norm_num) e1 e2
  refine sep_of_units (B := kRb) (by norm_num [kRb, TM.S]) (by norm_num) (by decide) (by norm_num [kRb, TM.S]) ?_
  have hu : dir u.1 u.2 = rotX (-ε1) (dir α δ) := dir_EqToEcl α δ ε1 hδ
  have hw' : dir w.Lon w.Lat = rotL e1 e2 (dir u.1 u.2) := dir_eclPrecess e1 e2 ⟨u.1, u.2⟩
  have hq : dir q.1 q.2 = rotX ε2 (rotL e1 e2 (rotX (-ε1) (dir α δ))) := by
    rw [← hu, ← hw']; exact dir_EclToEq w.Lon w.Lat ε2 hw
  have hq' : dir q'.RA q'.Dec = rotE e1 e2 (dir α δ) := by rw [dir_precess]
  rw [hq, hq']
  have o1 : (xε (xT 2)).val ρ0 ((e1 - 2000) / (100 * (2 : ℤ))) ((e2 - 2000) / (100 * (2 : ℤ))) = ε1 := by
    simp only [ε1, obliquity_epoch, ← v1, xε, xsec, Ex.val]; push_cast; ring
  have o2 : (xε (xT' 2)).val ρ0 ((e1 - 2000) / (100 * (2 : ℤ))) ((e2 - 2000) / (100 * (2 : ℤ))) = ε2 := by
    simp only [ε2, obliquity_epoch, ← v2, xε, xsec, Ex.val]; push_cast; ring
  refine chk_close (ρ := ρL (angR 2)) (σ := σL litR) (f := fun v => rotX ε2 (rotL e1 e2 (rotX (-ε1) v))) (g := rotE e1 e2) (holdsL _ _ rfl caR)
    ((lin_rotX _).comp ((lin_rotL _ _).comp (lin_rotX _))) (lin_rotE _ _) hx hy (fun v => ?_) (fun v => ?_) kR α δ
  · have s12 : ρL (angR 2) 12 ((e1 - 2000) / (100 * (2 : ℤ))) ((e2 - 2000) / (100 * (2 : ℤ))) = sin ε1 := by rw [← o1]; rfl
    have s13 : ρL (angR 2) 13 ((e1 - 2000) / (100 * (2 : ℤ))) ((e2 - 2000) / (100 * (2 : ℤ))) = cos ε1 := by rw [← o1]; rfl
    have s14 : ρL (angR 2) 14 ((e1 - 2000) / (100 * (2 : ℤ))) ((e2 - 2000) / (100 * (2 : ℤ))) = sin ε2 := by rw [← o2]; rfl
    have s15 : ρL (angR 2) 15 ((e1 - 2000) / (100 * (2 : ℤ))) ((e2 - 2000) / (100 * (2 : ℤ))) = cos ε2 := by rw [← o2]; rfl
    dsimp only [xR]
    rw [vv_rx (ρ := ρL (angR 2)) (s := .atom 14) (c := .atom 15) (a := ε2) (x := (e1 - 2000) / (100 * (2 : ℤ))) (y := (e2 - 2000) / (100 * (2 : ℤ))) s14 s15, vv_xL (T := xT 2) (t := xt 2) v1 v3 (fun n hn => by interval_cases n <;> rfl),
      vv_rx (a := -ε1) (by rw [Ex.val_neg, sin_neg]; exact congrArg Neg.neg s12) (by rw [cos_neg]; exact s13)]
  · exact vv_xE (T := xT 2) (t := xt 2) v1 v3 (fun n hn => by interval_cases n <;> rfl) v

end

/-- The hypotheses are met from 1950 to 2050 by the star at the equinox: one century moves the ecliptic by 47″. -/
example : |(1950 : ℝ) - 2000| ≤ 200 ∧ |(2050 : ℝ) - 2000| ≤ 200 ∧ |(0 : ℝ)| < π / 2 ∧
    |(eclPrecessVal (NewEclipticPrecessor 1950 2050) ⟨(Coord.EqToEcl 0 0 (sin 0.4) (cos 0.4)).1, (Coord.EqToEcl 0 0 (sin 0.4) (cos 0.4)).2⟩).Lat| < π / 2 := by
  refine ⟨by norm_num [abs_le], by norm_num [abs_le], by rw [abs_zero]; positivity, ?_⟩
  have e2 : (Coord.EqToEcl 0 0 (sin 0.4) (cos 0.4)).2 = 0 := by unfold Coord.EqToEcl; simp
  rw [e2]
  obtain ⟨d, hd⟩ : ∃ d, d = (eclAngles 1950 2050).2.1 - (Coord.EqToEcl 0 0 (sin 0.4) (cos 0.4)).1 := ⟨_, rfl⟩
  have hη : (eclAngles (1950 : ℝ) 2050).1 = 47.0028055 * (π / 180 / 3600) := by rw [C83_angles]; norm_num
  have h : (eclPrecessVal (NewEclipticPrecessor 1950 2050) ⟨(Coord.EqToEcl 0 0 (sin 0.4) (cos 0.4)).1, 0⟩).Lat =
      latOf (cos (eclAngles 1950 2050).1 * sin d) (cos d) (sin (eclAngles 1950 2050).1 * sin d) := by
    rw [hd]; simp [eclPrecessVal, NewEclipticPrecessor]
  rw [h, latOf_eq]
  · have hs : |sin (eclAngles (1950 : ℝ) 2050).1 * sin d| < 1 := by
      rw [abs_mul]
      have k1 : |sin (eclAngles (1950 : ℝ) 2050).1| ≤ |47.0028055 * (π / 180 / 3600)| := by rw [hη]; exact abs_sin_le_abs
      have k2 : |47.0028055 * (π / 180 / 3600)| < 1 := by
        have := pi_lt_four
        rw [abs_of_nonneg (by positivity)]; norm_num at *; linarith
      have k3 := abs_sin_le_one d
      nlinarith [abs_nonneg (sin d), abs_nonneg (sin (eclAngles (1950 : ℝ) 2050).1)]
    rw [abs_lt] at hs ⊢
    exact ⟨neg_pi_div_two_lt_arcsin.2 hs.1, arcsin_lt_pi_div_two.2 hs.2⟩
  · have k1 := sin_sq_add_cos_sq d
    have k2 := sin_sq_add_cos_sq (eclAngles (1950 : ℝ) 2050).1
    linear_combination k1 + sin d ^ 2 * k2

end Verif.Props
