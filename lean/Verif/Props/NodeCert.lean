import Verif.Props.PhaseCert
/-
The series of the passages through the nodes substituted in the series of the latitude of the Moon: certificates for C171.
-/
namespace Verif.Props

open Real Verif.Spec Verif.Go Verif.Model Verif.Lemmas Verif.Lemmas.PolyQ Verif.Lemmas.Laurent

/-- A row of the table of the latitude, in units of 10⁻⁶ degree.  The argument of latitude takes the first place, the elongation the last. -/
def rowB (r : Moonposition.Row) : Tm := ⟨r.F, r.M, r.M', r.D, r.M.natAbs, r.c⟩
def rowsB : List Tm := Moonposition.tb.map rowB

/-- Rates of the arguments in 10⁻⁷ degree per century. -/
def wb : Rate := ⟨4832020175233, 359990502909, 4771988675055, 4452671114034⟩

/-- The terms of the passage in units of 10⁻⁵ day. -/
def nodeC : List Tm := [⟨0,0,1,0,0,-47210⟩,⟨0,0,0,2,0,-16490⟩,⟨0,0,-1,2,0,-8680⟩,⟨0,0,1,2,0,840⟩,⟨0,-1,0,2,1,-830⟩,⟨0,-1,-1,2,1,-390⟩,⟨0,0,2,0,0,340⟩,⟨0,0,-2,2,0,-310⟩,⟨0,1,0,2,1,300⟩,⟨0,1,-1,0,1,280⟩,⟨0,1,0,0,1,260⟩,⟨0,0,0,4,0,250⟩,⟨0,0,0,1,0,240⟩,⟨0,1,1,0,1,220⟩,⟨0,0,-1,4,0,140⟩,⟨0,1,-1,2,1,50⟩,⟨0,-1,1,2,1,40⟩,⟨0,-2,0,2,1,-30⟩,⟨0,-1,0,4,1,30⟩]

/-- N B + r1 C B' + r2 C² B'' / 2, with the first factors doubled as sums of exponentials. -/
def polyB (col : Tm → Tm) : List Tm :=
  let cc (p : List Tm) := sort (p.map col)
  let B := cc (odd nodeC)
  let Bm := cc (odd (nodeC.filter (big 200)))
  let A0 := cc (odd rowsB)
  let A1 := cc (even (rowsB.map (Tm.w1 wb)))
  let A2 := cc (odd ((rowsB.filter (big 2000)).map (Tm.w2 wb)))
  merge (smul cN A0) (merge (smul r1 (cc (mul A1 B))) (smul r2 (cc (mul A2 (cc (mul Bm Bm))))))

theorem polyB_ev (col : Tm → Tm) (x : Pt) (h : ∀ t, (col t).ev x = t.ev x) :
    Laurent.ev x (polyB col) = 2 * Complex.I * ((cN * sinS x rowsB + 2 * r1 * (sinS x nodeC * cosS x (rowsB.map (Tm.w1 wb))) -
      4 * r2 * (sinS x (nodeC.filter (big 200)) ^ 2 * sinS x ((rowsB.filter (big 2000)).map (Tm.w2 wb))) : ℝ) : ℂ) := by
  unfold polyB
  simp only [ev_merge, ev_smul, ev_mul, ev_sort, ev_map x col h, ev_odd, ev_even]
  push_cast
  have hI : Complex.I ^ 2 = -1 := Complex.I_sq
  linear_combination 8 * (r2 : ℂ) * Complex.I * (sinS x (nodeC.filter (big 200)) : ℂ) ^ 2 * (sinS x ((rowsB.filter (big 2000)).map (Tm.w2 wb)) : ℂ) * hI

theorem asc_cert : (Nat.ble (Laurent.l1 (one (polyB col0))) (7826 * 2 * 10 ^ 50) && Nat.ble (le (polyB col0)) (4403 * 2 * 10 ^ 50)) = true := by decide +kernel
theorem desc_cert : (Nat.ble (Laurent.l1 (one (polyB col2))) (7826 * 2 * 10 ^ 50) && Nat.ble (le (polyB col2)) (4403 * 2 * 10 ^ 50)) = true := by decide +kernel
theorem b_w1 : Laurent.l1 (rowsB.map (Tm.w1 wb)) ≤ 29998319528217967184 := by decide +kernel
theorem b_w2 : Laurent.l1 (rowsB.map (Tm.w2 wb)) ≤ 169181069004165417100784882924982 := by decide +kernel
theorem b_w2b : Laurent.l1 ((rowsB.filter (big 2000)).map (Tm.w2 wb)) ≤ 169181069004165417100784882924982 := by decide +kernel
theorem b_w2s : Laurent.l1 ((rowsB.filter (small 2000)).map (Tm.w2 wb)) ≤ 3263587567031199073959380881922 := by decide +kernel
theorem b_w3 : Laurent.l1 (rowsB.map (Tm.w3 wb)) ≤ 1104956726436645974498866982006717831675602142 := by decide +kernel
theorem b_wt : (rowsB.all fun t => decide ((t.wt wb).natAbs ≤ 23281339753411)) = true := by decide +kernel
theorem b_e : emax2 rowsB = true := by decide +kernel
theorem c_e : emax2 nodeC = true := by decide +kernel
theorem c_l1 : Laurent.l1 nodeC ≤ 76930 := by decide +kernel
theorem c_l1b : Laurent.l1 (nodeC.filter (big 200)) ≤ 76930 := by decide +kernel
theorem c_l1s : Laurent.l1 (nodeC.filter (small 200)) ≤ 290 := by decide +kernel
theorem c_lip : lipn nodeC ≤ 121880 := by decide +kernel
theorem b_lip : lipn rowsB ≤ 7639807 := by decide +kernel
end Verif.Props
