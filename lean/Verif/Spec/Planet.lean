import Verif.Spec.Tangent
/-
Directions counted from the equator of a planet or from the plane of a ring.  Independent of the models.
-/
namespace Verif.Spec

open Real

/-- The direction with latitude lat north of the equator of a planet and longitude lon along that equator, counted from its ascending node on
the celestial equator; (A, D) are right ascension and declination of the planet's north pole. -/
noncomputable def fromPole (A D lon lat : ℝ) : V3 := cos lat • (cos lon • east A + sin lon • north A D) + sin lat • dir A D

/-- The direction with latitude lat north of a plane inclined by i and longitude lon along it from its ascending node, at longitude Ω. -/
noncomputable def fromPlane (i Ω lon lat : ℝ) : V3 := rotZ Ω (rotX i (dir lon lat))

/-- The pole of that plane. -/
noncomputable def planePole (i Ω : ℝ) : V3 := rotZ Ω (rotX i !₂[0, 0, 1])

end Verif.Spec
