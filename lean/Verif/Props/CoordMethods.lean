import Verif.Model.CoordMethods
import Verif.Props.Coord
/-
C47, the other way round.  C164: the methods of package coord, on values in memory.
-/
namespace Verif.Props

open Real Verif.Spec Verif.Go Verif.Model.Coord Verif.Lemmas

/-- C47.  From horizontal coordinates to equatorial ones and back, at the same place and time. -/
theorem C47_roundtrip_hz (A h φ ψ st : ℝ) (hh : |h| < π / 2) (hA0 : -π < A) (hA1 : A ≤ π) (hpole : |(HzToEq A h φ ψ st).2| < π / 2) :
    EqToHz (HzToEq A h φ ψ st).1 (HzToEq A h φ ψ st).2 φ ψ st = (A, h) := by
  obtain ⟨y3, y1, y2⟩ := C47_eqToHz (HzToEq A h φ ψ st).1 (HzToEq A h φ ψ st).2 φ ψ st hpole
  have h2 := hzToEq_vec A h φ ψ st hh
  obtain ⟨r0, r1⟩ : -π < (EqToHz (HzToEq A h φ ψ st).1 (HzToEq A h φ ψ st).2 φ ψ st).1 ∧
      (EqToHz (HzToEq A h φ ψ st).1 (HzToEq A h φ ψ st).2 φ ψ st).1 ≤ π := atan2_range _ _
  have hb' : |(EqToHz (HzToEq A h φ ψ st).1 (HzToEq A h φ ψ st).2 φ ψ st).2| ≤ π / 2 := abs_arcsin_le _
  rw [h2] at y1 y2 y3
  set A' := (EqToHz (HzToEq A h φ ψ st).1 (HzToEq A h φ ψ st).2 φ ψ st).1
  set h' := (EqToHz (HzToEq A h φ ψ st).1 (HzToEq A h φ ψ st).2 φ ψ st).2
  unfold dir at y1 y2 y3
  rw [inner_vec] at y1 y2 y3
  rw [sin_sub_pi_div_two, cos_sub_pi_div_two] at y1
  rw [sin_zero, cos_zero, sin_sub_pi_div_two, cos_sub_pi_div_two] at y2
  have e1 := sin_sq_add_cos_sq (st - ψ)
  have e3 := sin_sq_add_cos_sq φ
  generalize st - ψ = θ at *
  have z : dir A h = dir A' h' := by
    unfold dir
    apply vec_eq
    · rw [y1]; clear * - e1 e3; grind
    · rw [y2]; clear * - e1 e3; grind
    · rw [y3]; clear * - e1 e3; grind
  obtain ⟨f1, f2⟩ := dir_inj hh hb' z
  obtain ⟨-, -, k1, hk1⟩ := mod1_eq A
  obtain ⟨-, -, k2, hk2⟩ := mod1_eq A'
  have hd : A' - A = ((k2 - k1 : ℤ) : ℝ) * (2 * π) := by push_cast; linarith
  have hπ := pi_pos
  have hk : k2 - k1 = 0 := by
    have u1 : ((k2 - k1 : ℤ) : ℝ) < 1 := by
      by_contra hge; push Not at hge; nlinarith
    have u2 : (-1 : ℝ) < ((k2 - k1 : ℤ) : ℝ) := by
      by_contra hge; push Not at hge; nlinarith
    have v1 : k2 - k1 < 1 := by exact_mod_cast u1
    have v2 : -1 < k2 - k1 := by exact_mod_cast u2
    omega
  rw [hk] at hd
  simp at hd
  refine Prod.ext ?_ f1.symm
  show A' = A
  linarith

/-- The pole star's region: altitude 0.5, azimuth 1, seen from the equator at sidereal time 0. -/
example : |(HzToEq 1 0.5 0 0 0).2| < π / 2 := by
  have e : (HzToEq 1 0.5 0 0 0).2 = -arcsin (cos 0.5 * cos 1) := by
    unfold HzToEq; simp [arcsin_neg]
  have hπ := pi_gt_three
  rw [e, abs_neg, abs_lt]
  have c1 : cos (1 : ℝ) < 1 := by
    have := cos_lt_cos_of_nonneg_of_le_pi (x := 0) (y := 1) le_rfl (by linarith) (by norm_num)
    rwa [cos_zero] at this
  have c2 : 0 < cos (1 : ℝ) := cos_pos_of_mem_Ioo ⟨by linarith, by linarith⟩
  have c3 : 0 < cos (0.5 : ℝ) := cos_pos_of_mem_Ioo ⟨by linarith, by linarith⟩
  have c4 := cos_le_one 0.5
  exact ⟨by linarith [arcsin_nonneg.2 (mul_pos c3 c2).le], arcsin_lt_pi_div_two.2 (by nlinarith)⟩

/-! C164 -/

/-- The memories agree everywhere except at one address of one type. -/
def OnlyEq (m m' : Mem) (p : ℕ) : Prop := m'.ecl = m.ecl ∧ m'.hz = m.hz ∧ m'.gal = m.gal ∧ ∀ q, q ≠ p → m'.eq q = m.eq q
def OnlyEcl (m m' : Mem) (p : ℕ) : Prop := m'.eq = m.eq ∧ m'.hz = m.hz ∧ m'.gal = m.gal ∧ ∀ q, q ≠ p → m'.ecl q = m.ecl q
def OnlyHz (m m' : Mem) (p : ℕ) : Prop := m'.eq = m.eq ∧ m'.ecl = m.ecl ∧ m'.gal = m.gal ∧ ∀ q, q ≠ p → m'.hz q = m.hz q
def OnlyGal (m m' : Mem) (p : ℕ) : Prop := m'.eq = m.eq ∧ m'.ecl = m.ecl ∧ m'.hz = m.hz ∧ ∀ q, q ≠ p → m'.gal q = m.gal q

/-- **C164.**  Every method returns its receiver and changes nothing else in memory, its arguments included. -/
theorem C164_frame (m : Mem) (p q : ℕ) (ε : Obliquity) (g : Place) (st : ℝ) :
    ((m.EqToEcl p q ε).2 = p ∧ OnlyEcl m (m.EqToEcl p q ε).1 p) ∧ ((m.EclToEq p q ε).2 = p ∧ OnlyEq m (m.EclToEq p q ε).1 p) ∧
    ((m.EqToHz p q g st).2 = p ∧ OnlyHz m (m.EqToHz p q g st).1 p) ∧ ((m.HzToEq p q g st).2 = p ∧ OnlyEq m (m.HzToEq p q g st).1 p) ∧
    ((m.EqToGal p q).2 = p ∧ OnlyGal m (m.EqToGal p q).1 p) ∧ ((m.GalToEq p q).2 = p ∧ OnlyEq m (m.GalToEq p q).1 p) := by
  refine ⟨⟨rfl, rfl, rfl, rfl, ?_⟩, ⟨rfl, rfl, rfl, rfl, ?_⟩, ⟨rfl, rfl, rfl, rfl, ?_⟩, ⟨rfl, rfl, rfl, rfl, ?_⟩, ⟨rfl, rfl, rfl, rfl, ?_⟩,
    ⟨rfl, rfl, rfl, rfl, ?_⟩⟩ <;> exact fun r hr => Function.update_of_ne hr _ _

/-- A position off the poles, with right ascension in a turn. -/
def Equatorial.Regular (e : Equatorial) : Prop := |e.Dec| < π / 2 ∧ 0 ≤ e.RA ∧ e.RA < 2 * π

/-- **C164.**  To ecliptic coordinates and back into any place in memory, with the obliquity of any angle: the position is the first one. -/
theorem C164_ecliptic (m : Mem) (p q r : ℕ) (x : ℝ) (h : Equatorial.Regular (m.eq q))
    (hp : |((m.EqToEcl p q (NewObliquity x)).1.ecl p).Lat| < π / 2) :
    ((m.EqToEcl p q (NewObliquity x)).1.EclToEq r p (NewObliquity x)).1.eq r = m.eq q := by
  have hl : ((m.EqToEcl p q (NewObliquity x)).1.ecl p) = ⟨(EqToEcl (m.eq q).RA (m.eq q).Dec (sin x) (cos x)).1, (EqToEcl (m.eq q).RA (m.eq q).Dec (sin x) (cos x)).2⟩ := by
    unfold Mem.EqToEcl NewObliquity; simp
  rw [hl] at hp
  have k := C46_roundtrip_eq (m.eq q).RA (m.eq q).Dec (sin x) (cos x) (sin_sq_add_cos_sq x) h.1 h.2.1 h.2.2 hp
  have e : ∀ M : Mem, (M.EclToEq r p (NewObliquity x)).1.eq r = ⟨(EclToEq (M.ecl p).Lon (M.ecl p).Lat (sin x) (cos x)).1, (EclToEq (M.ecl p).Lon (M.ecl p).Lat (sin x) (cos x)).2⟩ := by
    intro M; unfold Mem.EclToEq NewObliquity; simp
  rw [e, hl, k]

/-- **C164.**  To horizontal coordinates and back, at one place and time. -/
theorem C164_horizontal (m : Mem) (p q r : ℕ) (g : Place) (st : ℝ) (h : Equatorial.Regular (m.eq q))
    (hp : |((m.EqToHz p q g st).1.hz p).Alt| < π / 2) :
    ((m.EqToHz p q g st).1.HzToEq r p g st).1.eq r = m.eq q := by
  have hl : ((m.EqToHz p q g st).1.hz p) = ⟨(EqToHz (m.eq q).RA (m.eq q).Dec g.Lat g.Lon st).1, (EqToHz (m.eq q).RA (m.eq q).Dec g.Lat g.Lon st).2⟩ := by
    unfold Mem.EqToHz; simp
  rw [hl] at hp
  have k := C47_roundtrip (m.eq q).RA (m.eq q).Dec g.Lat g.Lon st h.1 h.2.1 h.2.2 hp
  have e : ∀ M : Mem, (M.HzToEq r p g st).1.eq r = ⟨(HzToEq (M.hz p).Az (M.hz p).Alt g.Lat g.Lon st).1, (HzToEq (M.hz p).Az (M.hz p).Alt g.Lat g.Lon st).2⟩ := by
    intro M; unfold Mem.HzToEq; simp
  rw [e, hl, k]

/-- **C164.**  To galactic coordinates and back. -/
theorem C164_galactic (m : Mem) (p q r : ℕ) (h : Equatorial.Regular (m.eq q)) (hp : |((m.EqToGal p q).1.gal p).Lat| < π / 2) :
    ((m.EqToGal p q).1.GalToEq r p).1.eq r = m.eq q := by
  have hl : ((m.EqToGal p q).1.gal p) = ⟨(EqToGal (m.eq q).RA (m.eq q).Dec).2, (EqToGal (m.eq q).RA (m.eq q).Dec).1⟩ := by
    unfold Mem.EqToGal; simp
  rw [hl] at hp
  have k := C48_roundtrip_eq (m.eq q).RA (m.eq q).Dec h.1 h.2.1 h.2.2 hp
  have e : ∀ M : Mem, (M.GalToEq r p).1.eq r = ⟨(GalToEq (M.gal p).Lon (M.gal p).Lat).1, (GalToEq (M.gal p).Lon (M.gal p).Lat).2⟩ := by
    intro M; unfold Mem.GalToEq; simp
  rw [e, hl, k]

/-- **C164.**  The stored ecliptic, horizontal and galactic coordinates are those of the direction stored in the equatorial value: latitude from the
pole of the ecliptic of obliquity `x`, altitude from the zenith, galactic latitude from the galactic pole. -/
theorem C164_meaning (m : Mem) (p q : ℕ) (x : ℝ) (g : Place) (st : ℝ) (h : |(m.eq q).Dec| < π / 2) :
    let d := dir (m.eq q).RA (m.eq q).Dec
    sin ((m.EqToEcl p q (NewObliquity x)).1.ecl p).Lat = inner ℝ d (dir (3 * π / 2) (π / 2 - x)) ∧
    sin ((m.EqToHz p q g st).1.hz p).Alt = inner ℝ d (dir (st - g.Lon) g.Lat) ∧
    sin ((m.EqToGal p q).1.gal p).Lat = inner ℝ d (dir galRA galDec) := by
  refine ⟨?_, ?_, ?_⟩
  · have e : ((m.EqToEcl p q (NewObliquity x)).1.ecl p).Lat = (EqToEcl (m.eq q).RA (m.eq q).Dec (sin x) (cos x)).2 := by
      unfold Mem.EqToEcl NewObliquity; simp
    obtain ⟨-, -, k⟩ := vec_inj (C46_eqToEcl_rotation (m.eq q).RA (m.eq q).Dec (sin x) (cos x) (sin_sq_add_cos_sq x) (cos_pos_of_abs_lt h))
    rw [e, k, inner_dir, sin_pi_div_two_sub, cos_pi_div_two_sub, show (m.eq q).RA - 3 * π / 2 = (m.eq q).RA - π - π / 2 by ring,
      cos_sub_pi_div_two, sin_sub_pi]
    ring
  · have e : ((m.EqToHz p q g st).1.hz p).Alt = (EqToHz (m.eq q).RA (m.eq q).Dec g.Lat g.Lon st).2 := by
      unfold Mem.EqToHz; simp
    rw [e]; exact (C47_eqToHz _ _ g.Lat g.Lon st h).1
  · have e : ((m.EqToGal p q).1.gal p).Lat = (EqToGal (m.eq q).RA (m.eq q).Dec).2 := by
      unfold Mem.EqToGal; simp
    rw [e]; exact (C48_eqToGal _ _ h).1

/-- A memory with the vernal point in it meets the hypotheses: right ascension and declination 0 give latitude 0. -/
example : ∃ m : Mem, Equatorial.Regular (m.eq 7) ∧ |((m.EqToEcl 1 7 (NewObliquity 0.4)).1.ecl 1).Lat| < π / 2 := by
  have hπ := pi_gt_three
  refine ⟨⟨fun _ => ⟨0, 0⟩, fun _ => ⟨0, 0⟩, fun _ => ⟨0, 0⟩, fun _ => ⟨0, 0⟩⟩, ⟨by simp; linarith, le_rfl, by simp; linarith⟩, ?_⟩
  unfold Mem.EqToEcl EqToEcl
  simp; linarith

end Verif.Props
