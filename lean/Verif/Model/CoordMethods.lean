import Verif.Model.Coord
/-
Model of the methods of package coord on pointers to structs.  A heap holds the values at the addresses of each type; a method reads the fields of its
arguments, stores into its receiver and returns the receiver's address.  Values of different struct types never share an address.
-/
namespace Verif.Model.Coord

open Real

/-- `Equatorial`.  v3/coord/coord.go:75-78. -/
structure Equatorial where
  RA : ℝ
  Dec : ℝ

/-- `Ecliptic`.  v3/coord/coord.go:44-47. -/
structure Ecliptic where
  Lon : ℝ
  Lat : ℝ

/-- `Horizontal`.  v3/coord/coord.go:181-184. -/
structure Horizontal where
  Az : ℝ
  Alt : ℝ

/-- `Galactic`.  v3/coord/coord.go:224-227. -/
structure Galactic where
  Lat : ℝ
  Lon : ℝ

/-- `Obliquity`.  v3/coord/coord.go:29-31. -/
structure Obliquity where
  S : ℝ
  C : ℝ

/-- `globe.Coord`.  v3/globe/globe.go:121-124. -/
structure Place where
  Lat : ℝ
  Lon : ℝ

/-- The values in memory. -/
structure Mem where
  eq : ℕ → Equatorial
  ecl : ℕ → Ecliptic
  hz : ℕ → Horizontal
  gal : ℕ → Galactic

/-- `NewObliquity`.  v3/coord/coord.go:37-41. -/
noncomputable def NewObliquity (ε : ℝ) : Obliquity := ⟨sin ε, cos ε⟩

/-- Method `EqToEcl` of `Ecliptic`.  v3/coord/coord.go:50-53. -/
noncomputable def Mem.EqToEcl (m : Mem) (ecl eq : ℕ) (ε : Obliquity) : Mem × ℕ :=
  let r := Coord.EqToEcl (m.eq eq).RA (m.eq eq).Dec ε.S ε.C
  ({ m with ecl := Function.update m.ecl ecl { Lon := r.1, Lat := r.2 } }, ecl)

/-- Method `EclToEq` of `Equatorial`.  v3/coord/coord.go:81-84. -/
noncomputable def Mem.EclToEq (m : Mem) (eq ecl : ℕ) (ε : Obliquity) : Mem × ℕ :=
  let r := Coord.EclToEq (m.ecl ecl).Lon (m.ecl ecl).Lat ε.S ε.C
  ({ m with eq := Function.update m.eq eq { RA := r.1, Dec := r.2 } }, eq)

/-- Method `HzToEq` of `Equatorial`.  v3/coord/coord.go:109-112. -/
noncomputable def Mem.HzToEq (m : Mem) (eq hz : ℕ) (g : Place) (st : ℝ) : Mem × ℕ :=
  let r := Coord.HzToEq (m.hz hz).Az (m.hz hz).Alt g.Lat g.Lon st
  ({ m with eq := Function.update m.eq eq { RA := r.1, Dec := r.2 } }, eq)

/-- Method `GalToEq` of `Equatorial`.  v3/coord/coord.go:145-148. -/
noncomputable def Mem.GalToEq (m : Mem) (eq g : ℕ) : Mem × ℕ :=
  let r := Coord.GalToEq (m.gal g).Lon (m.gal g).Lat
  ({ m with eq := Function.update m.eq eq { RA := r.1, Dec := r.2 } }, eq)

/-- Method `EqToHz` of `Horizontal`.  v3/coord/coord.go:193-196. -/
noncomputable def Mem.EqToHz (m : Mem) (hz eq : ℕ) (g : Place) (st : ℝ) : Mem × ℕ :=
  let r := Coord.EqToHz (m.eq eq).RA (m.eq eq).Dec g.Lat g.Lon st
  ({ m with hz := Function.update m.hz hz { Az := r.1, Alt := r.2 } }, hz)

/-- Method `EqToGal` of `Galactic`.  v3/coord/coord.go:234-237. -/
noncomputable def Mem.EqToGal (m : Mem) (g eq : ℕ) : Mem × ℕ :=
  let r := Coord.EqToGal (m.eq eq).RA (m.eq eq).Dec
  ({ m with gal := Function.update m.gal g { Lon := r.1, Lat := r.2 } }, g)

end Verif.Model.Coord
