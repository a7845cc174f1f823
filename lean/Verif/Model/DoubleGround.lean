import Verif.Model.DoubleEarth
import Verif.Model.DoublePositions
import Verif.Model.DoubleForces
import Verif.Model.DoubleVectors
import Verif.Model.Terrestrial

/-!
# Ground sites and ground observations in double precision

Conventions as in `Model/DoubleEarth`.
-/

namespace Openspace.F64

noncomputable section

/-- `ENZ.matrix` (positions.py 57-77) -/
def enzMatrix (lib : Libm) (lamb psi : ℝ) : Mat3 :=
  let slamb := lib.sin lamb
  let clamb := lib.cos lamb
  let spsi := lib.sin psi
  let cpsi := lib.cos psi
  ⟨⟨-slamb, clamb, 0⟩, ⟨rnd (-spsi * clamb), rnd (-spsi * slamb), cpsi⟩, ⟨rnd (cpsi * clamb), rnd (cpsi * slamb), spsi⟩⟩

/-- `_PositionConvertLLA.to_itrf` (positions.py 283-304) -/
def llaToItrf (lib : Libm) (lla : LLA) : Py Vec3 := do
  let e ← sqrt (rnd (geoF * rnd (2 - geoF)))
  let slat := lib.sin lla.latitude
  let clat := lib.cos lla.latitude
  let den ← sqrt (rnd (1 - rnd (rnd (rnd (e * e) * slat) * slat)))
  let n ← div geoA den
  pure ⟨rnd (rnd (rnd (n + lla.altitude) * clat) * lib.cos lla.longitude),
    rnd (rnd (rnd (n + lla.altitude) * clat) * lib.sin lla.longitude),
    rnd (rnd (rnd (n * rnd (1 - rnd (e * e))) + lla.altitude) * slat)⟩

/-- `GroundSite.__init__` (terrestrial.py 9-24) -/
def groundSite (lib : Libm) (lla : LLA) : Py GroundSite := do
  let p ← llaToItrf lib lla
  pure ⟨p, lla.latitude, lla.longitude, enzMatrix lib lla.longitude lla.latitude⟩

/-- `GroundSite.enz_position` (terrestrial.py 37-45) -/
def enzPosition (g : GroundSite) (obj_itrf : Vec3) : Vec3 := mulVec g.enz_matrix (minus obj_itrf g.itrf_position)

/-- `GroundObservation.__init__` (obs.py 77-112) -/
def groundObservation (lib : Libm) (observer_state : State) (observed_direction : Vec3) (r_error ang_error : ℝ) :
    GroundObservation :=
  let spherical := fromCartesian lib ⟨observed_direction.y, observed_direction.x, observed_direction.z⟩
  ⟨observer_state.copy, observed_direction.copy, spherical.radius, spherical.right_ascension, spherical.declination,
    r_error, ang_error⟩

/-- `GroundObservation.from_angles_and_range` (obs.py 114-137) -/
def fromAnglesAndRange (lib : Libm) (observer_state : State) (az el r r_error ang_error : ℝ) : GroundObservation :=
  let nez := toCartesian lib ⟨r, az, el⟩
  groundObservation lib observer_state ⟨nez.y, nez.x, nez.z⟩ r_error ang_error

/-- `GroundSite.angles_and_range` (terrestrial.py 47-61), for a target with this position and epoch -/
def anglesAndRange (lib : Libm) (g : GroundSite) (position : Vec3) (epoch : Epoch) : Py GroundObservation := do
  let p ← gcrfToItrf lib position epoch.value
  pure (groundObservation lib (State.fromFixed epoch g.itrf_position) (enzPosition g p) 0 0)

end

end Openspace.F64
