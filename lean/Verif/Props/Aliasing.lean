import Verif.Spec.Rotation
import Verif.Model.Precess

/-! Property C52: functions taking a source and a destination struct may be used in place. -/

set_option linter.unusedSectionVars false

namespace Verif.Props

open Verif.Spec Verif.Go Verif.Model.Precess

variable {F : Type} [Add F] [Sub F] [Mul F] [Div F] [Neg F] [Ops F]

/-- A function that replaces the destination by a value computed from the source struct alone is safe. -/
theorem inPlaceSafe_of_val {S : Type} {f : (ℕ → S) → ℕ → ℕ → (ℕ → S)} (val : S → S)
    (h : ∀ m src dst a, f m src dst a = if a = dst then val (m src) else m a) : InPlaceSafe f := by
  refine ⟨fun m src dst a ha => by rw [h, if_neg ha], fun m m' src src' dst dst' e => ?_⟩
  rw [h, h, if_pos rfl, if_pos rfl, e]

theorem precess_val (p : Precessor F) (m : Heap (Equatorial F)) (src dst a : ℕ) :
    Precess p m src dst a = if a = dst then precessVal p (m src) else m a := by
  unfold Precess precessVal latOf
  by_cases ha : a = dst
  · subst ha
    rw [if_pos rfl]
    dsimp only
    split_ifs <;> simp [setRA, setDec]
  · dsimp only
    split_ifs <;> simp [setRA, setDec, ha]

/-- C52.  Precessor.Precess. -/
theorem C52_precess (p : Precessor F) : InPlaceSafe (Precess p) :=
  inPlaceSafe_of_val (precessVal p) (precess_val p)

theorem position_val (e1 e2 mα mδ : F) (m : Heap (Equatorial F)) (src dst a : ℕ) :
    Position m src dst e1 e2 mα mδ a = if a = dst then positionVal (m src) e1 e2 mα mδ else m a := by
  unfold Position
  rw [precess_val]
  by_cases ha : a = dst
  · subst ha
    rw [if_pos rfl, if_pos rfl]
    unfold positionVal
    congr 1
    by_cases hs : src = a <;> simp [setRA, setDec, hs]
  · simp [setRA, setDec, ha]

/-- C52.  precess.Position. -/
theorem C52_position (e1 e2 mα mδ : F) :
    InPlaceSafe (fun m src dst => Position m src dst e1 e2 mα mδ) :=
  inPlaceSafe_of_val (fun q => positionVal q e1 e2 mα mδ) (position_val e1 e2 mα mδ)

theorem approxPosition_val (e1 e2 mα mδ : F) (m : Heap (Equatorial F)) (src dst a : ℕ) :
    ApproxPosition m src dst e1 e2 mα mδ a = if a = dst then approxPositionVal (m src) e1 e2 mα mδ else m a := by
  unfold ApproxPosition approxPositionVal
  by_cases ha : a = dst
  · subst ha
    by_cases hs : src = a <;> simp [setRA, setDec, hs]
  · simp [setRA, setDec, ha]

/-- C52.  precess.ApproxPosition. -/
theorem C52_approxPosition (e1 e2 mα mδ : F) :
    InPlaceSafe (fun m src dst => ApproxPosition m src dst e1 e2 mα mδ) :=
  inPlaceSafe_of_val (fun q => approxPositionVal q e1 e2 mα mδ) (approxPosition_val e1 e2 mα mδ)

theorem eclPrecess_val (p : EclipticPrecessor F) (m : Heap (Ecliptic F)) (src dst a : ℕ) :
    EclPrecess p m src dst a = if a = dst then eclPrecessVal p (m src) else m a := by
  unfold EclPrecess eclPrecessVal latOf
  by_cases ha : a = dst
  · subst ha
    rw [if_pos rfl]
    dsimp only
    split_ifs <;> simp [setLon, setLat]
  · dsimp only
    split_ifs <;> simp [setLon, setLat, ha]

/-- C52.  EclipticPrecessor.Precess. -/
theorem C52_eclipticPrecess (p : EclipticPrecessor F) : InPlaceSafe (EclPrecess p) :=
  inPlaceSafe_of_val (eclPrecessVal p) (eclPrecess_val p)

/-- C52.  precess.EclipticPosition. -/
theorem C52_eclipticPosition (e1 e2 mα mδ sε cε : F) :
    InPlaceSafe (fun m src dst => EclipticPosition m src dst e1 e2 mα mδ sε cε) := by
  refine inPlaceSafe_of_val (fun q => eclipticPositionVal q e1 e2 mα mδ sε cε) ?_
  intro m src dst a
  unfold EclipticPosition eclipticPositionVal
  dsimp only
  by_cases h1 : ¬ Ops.eq mα (Ops.lit 0) ∨ ¬ Ops.eq mδ (Ops.lit 0)
  · rw [if_pos h1, if_pos h1, eclPrecess_val]
    by_cases ha : a = dst
    · subst ha
      simp [setLon, setLat]
    · simp [setLon, setLat, ha]
  · rw [if_neg h1, if_neg h1, eclPrecess_val]
    by_cases ha : a = dst
    · subst ha
      simp
    · simp [ha]

/-- C52.  EclipticPrecessor.ReduceElements. -/
theorem C52_reduceElements (p : EclipticPrecessor F) : InPlaceSafe (ReduceElements p) := by
  refine inPlaceSafe_of_val (reduceVal p) ?_
  intro m src dst a
  unfold ReduceElements reduceVal
  by_cases ha : a = dst
  · subst ha
    by_cases hs : src = a <;> simp [setInc, setNode, setPeri, hs]
  · simp [setInc, setNode, setPeri, ha]

/-- C52.  elementequinox.ReduceB1950ToJ2000. -/
theorem C52_reduceB1950 : InPlaceSafe (ReduceB1950ToJ2000 (F := F)) := by
  refine inPlaceSafe_of_val reduceB1950Val ?_
  intro m src dst a
  unfold ReduceB1950ToJ2000 reduceB1950Val
  by_cases ha : a = dst
  · subst ha
    by_cases hs : src = a <;> simp [setInc, setNode, setPeri, hs]
  · simp [setInc, setNode, setPeri, ha]

/-- C52.  elementequinox.ReduceB1950FK4ToJ2000FK5. -/
theorem C52_reduceFK4 : InPlaceSafe (ReduceB1950FK4ToJ2000FK5 (F := F)) := by
  refine inPlaceSafe_of_val reduceFK4Val ?_
  intro m src dst a
  unfold ReduceB1950FK4ToJ2000FK5 reduceFK4Val
  by_cases ha : a = dst
  · subst ha
    by_cases hs : src = a <;> simp [setInc, setNode, setPeri, hs]
  · simp [setInc, setNode, setPeri, ha]

/-- C52.  precess.ProperMotion3D. -/
theorem C52_properMotion3D (e1 e2 r mr mα mδ : F) :
    InPlaceSafe (fun m src dst => ProperMotion3D m src dst e1 e2 r mr mα mδ) := by
  refine inPlaceSafe_of_val (fun q => properMotion3DVal q e1 e2 r mr mα mδ) ?_
  intro m src dst a
  unfold ProperMotion3D properMotion3DVal
  by_cases ha : a = dst
  · subst ha
    simp [setRA, setDec]
  · simp [setRA, setDec, ha]

/-- C52.  apparent.Position, for any nutation and aberration. -/
theorem C52_apparentPosition (nut aber : F → F → F × F) (e1 e2 mα mδ : F) :
    InPlaceSafe (fun m src dst => ApparentPosition nut aber m src dst e1 e2 mα mδ) := by
  refine inPlaceSafe_of_val (fun q => apparentPositionVal nut aber q e1 e2 mα mδ) ?_
  intro m src dst a
  unfold ApparentPosition apparentPositionVal
  by_cases ha : a = dst
  · subst ha
    simp [setRA, setDec, position_val]
  · simp [setRA, setDec, ha, position_val]

/-- C52.  apparent.PositionRonVondrak, for any nutation and aberration. -/
theorem C52_positionRonVondrak (nut aber : F → F → F × F) (e2 mα mδ : F) :
    InPlaceSafe (fun m src dst => PositionRonVondrak nut aber m src dst e2 mα mδ) := by
  refine inPlaceSafe_of_val (fun q => positionRonVondrakVal nut aber q e2 mα mδ) ?_
  intro m src dst a
  unfold PositionRonVondrak positionRonVondrakVal
  by_cases ha : a = dst
  · subst ha
    by_cases hs : src = a <;> simp [setRA, setDec, position_val, hs]
  · simp [setRA, setDec, ha, position_val]

/-- C52.  The memory with the same struct as source and destination, and one with different addresses: same result. -/
theorem C52_example (p : Precessor F) (m : Heap (Equatorial F)) : Precess p m 3 3 3 = Precess p m 3 5 5 ∧ Precess p m 3 5 3 = m 3 :=
  ⟨(C52_precess p).2 m m 3 3 3 5 rfl, (C52_precess p).1 m 3 5 3 (by decide)⟩

end Verif.Props
