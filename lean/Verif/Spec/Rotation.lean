import Verif.Spec.Sphere
/-
Rotations of space about the three axes, and the direction of a body on its orbit.  Independent of the models.
-/
namespace Verif.Spec

open Real

/-- Turn by a about the third axis. -/
noncomputable def rotZ (a : ℝ) (v : V3) : V3 := !₂[cos a * v 0 - sin a * v 1, sin a * v 0 + cos a * v 1, v 2]

/-- Turn by a about the first axis. -/
noncomputable def rotX (a : ℝ) (v : V3) : V3 := !₂[v 0, cos a * v 1 - sin a * v 2, sin a * v 1 + cos a * v 2]

/-- Turn by a about the second axis (third axis towards the first). -/
noncomputable def rotY (a : ℝ) (v : V3) : V3 := !₂[cos a * v 0 + sin a * v 2, v 1, -sin a * v 0 + cos a * v 2]

/-- The direction of a body on an orbit: in the orbital plane at angle u from the ascending node, the plane inclined by i about
the line of nodes, which is at longitude Ω. -/
noncomputable def orbitDir (i Ω u : ℝ) : V3 := rotZ Ω (rotX i !₂[cos u, sin u, 0])

/-- A function taking a memory, a source and a destination address is safe for in-place use: it writes only the destination, the
result depends on the source struct only, and using the source as destination gives the same result as any other destination. -/
def InPlaceSafe {S : Type} (f : (ℕ → S) → ℕ → ℕ → (ℕ → S)) : Prop :=
  (∀ h src dst a, a ≠ dst → f h src dst a = h a) ∧
  (∀ h h' src src' dst dst', h src = h' src' → f h src dst dst = f h' src' dst' dst') 

end Verif.Spec
