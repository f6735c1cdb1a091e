import Verif.Lemmas.PolyQ
/-
Composition of polynomials with rational coefficients, and bounds on an interval.
-/
namespace Verif.Lemmas.PolyQ

/-- Composition. -/
def pcomp : List ℚ → List ℚ → List ℚ
  | [], _ => []
  | a :: p, q => padd [a] (pmul q (pcomp p q))

theorem ev_pcomp (p q : List ℚ) (y : ℝ) : ev (pcomp p q) y = ev p (ev q y) := by
  induction p with
  | nil => rfl
  | cons a p ih => rw [pcomp, ev_padd, ev_pmul, ih]; simp [ev]

/-- A bound on [−R, R]. -/
theorem abs_ev_le_scaled (p : List ℚ) (R : ℚ) (hR : 0 < R) {T : ℝ} (hT : |T| ≤ R) : |ev p T| ≤ (l1 (pcomp p [0, R]) : ℝ) := by
  have hR' : (0 : ℝ) < R := by exact_mod_cast hR
  have e : ev [0, R] (T / R) = T := by simp [ev]; field_simp
  have h := abs_ev_le (pcomp p [0, R]) (y := T / R) (by rw [abs_div, abs_of_pos hR']; exact (div_le_one hR').2 hT)
  rwa [ev_pcomp, e] at h

/-- The argument `A` at the date given by the polynomial `M` of days, against the polynomial `B`, both of the variable `T`. -/
def resid (A M B : List ℚ) (m : ℤ) : List ℚ := padd (pcomp A (padd (psc (1 / 36525) M) [-2451545 / 36525])) (padd (psc (-1) B) [-360 * m])

theorem resid_bound (A M B : List ℚ) (m : ℤ) (R ε : ℚ) (hR : 0 < R) (h : l1 (pcomp (resid A M B m) [0, R]) ≤ ε) {T : ℝ} (hT : |T| ≤ R) :
    |ev A ((ev M T - 2451545) / 36525) - ev B T - 360 * m| ≤ ε := by
  have k := abs_ev_le_scaled (resid A M B m) R hR hT
  have e : ev (resid A M B m) T = ev A ((ev M T - 2451545) / 36525) - ev B T - 360 * m := by
    unfold resid
    rw [ev_padd, ev_pcomp, ev_padd, ev_padd, ev_psc, ev_psc]
    simp only [ev]
    push_cast
    rw [show (1 / 36525 : ℝ) * ev M T + (-2451545 / 36525 + T * 0) = (ev M T - 2451545) / 36525 by ring]
    ring
  rw [e] at k
  exact k.trans (by exact_mod_cast h)

end Verif.Lemmas.PolyQ
