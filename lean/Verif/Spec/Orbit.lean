import Verif.Model.Elements

/-!
# Independent specification: the conic described by classical elements
-/

namespace Openspace.Spec

open Real

/-- unit vector at argument of latitude `u` in the orbit plane with the given inclination and node -/
noncomputable def latitudeDir (inc raan u : ℝ) : Vec3 :=
  ⟨cos u * cos raan - sin u * cos inc * sin raan,
   cos u * sin raan + sin u * cos inc * cos raan,
   sin u * sin inc⟩

/-- point of the conic at true anomaly `nu`: `r = a (1 - e²) / (1 + e cos nu)` -/
noncomputable def orbitPoint (el : ClassicalElements) (nu : ℝ) : Vec3 :=
  (latitudeDir el.inclination el.raan (el.argument_of_perigee + nu)).scaled
    (el.semimajor_axis * (1 - el.eccentricity ^ 2) / (1 + el.eccentricity * cos nu))

/-- `E` is the eccentric anomaly that belongs to the true anomaly `nu` -/
def IsEccentricAnomaly (e nu E : ℝ) : Prop :=
  (1 + e * cos nu) * cos E = cos nu + e ∧ (1 + e * cos nu) * sin E = √(1 - e ^ 2) * sin nu

end Openspace.Spec
