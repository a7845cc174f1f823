import Verif.Model.States

/-!
# Model of `/repo/src/openspace/estimation/obs.py`
-/

namespace Openspace

noncomputable section

/-- `SpaceObservation` (obs.py 23-57) -/
@[ext] structure SpaceObservation where
  observer_state : GCRF
  observed_direction : Vec3
  range : ℝ
  right_ascension : ℝ
  declination : ℝ
  range_error : ℝ
  angular_error : ℝ

namespace SpaceObservation

/-- `SpaceObservation.__init__` (obs.py 24-57) -/
def new (observer_state : GCRF) (observed_direction : Vec3) (r_error ang_error : ℝ) :
    SpaceObservation :=
  let spherical := SphericalPosition.fromCartesian observed_direction
  ⟨observer_state.copy, observed_direction.copy, spherical.radius, spherical.right_ascension,
    spherical.declination, r_error, ang_error⟩

/-- `SpaceObservation.epoch` (obs.py 59-65) -/
def epoch (o : SpaceObservation) : Epoch := o.observer_state.epoch

/-- `SpaceObservation.ijk_position` (obs.py 67-73) -/
def ijkPosition (o : SpaceObservation) : Py Vec3 :=
  PositionConvert.gcrfToIjk (o.observer_state.position.plus o.observed_direction) o.epoch

end SpaceObservation

/-- `GroundObservation` (obs.py 76-112) -/
@[ext] structure GroundObservation where
  observer_state : State
  observed_direction : Vec3
  range : ℝ
  azimuth : ℝ
  elevation : ℝ
  range_error : ℝ
  angular_error : ℝ

namespace GroundObservation

/-- `GroundObservation.__init__` (obs.py 77-112) -/
def new (observer_state : State) (observed_direction : Vec3) (r_error ang_error : ℝ) :
    GroundObservation :=
  let spherical := SphericalPosition.fromCartesian
    ⟨observed_direction.y, observed_direction.x, observed_direction.z⟩
  ⟨observer_state.copy, observed_direction.copy, spherical.radius, spherical.right_ascension,
    spherical.declination, r_error, ang_error⟩

/-- `GroundObservation.from_angles_and_range` (obs.py 114-137) -/
def fromAnglesAndRange (observer_state : State) (az el r r_error ang_error : ℝ) :
    GroundObservation :=
  let nez := SphericalPosition.toCartesian ⟨r, az, el⟩
  new observer_state ⟨nez.y, nez.x, nez.z⟩ r_error ang_error

/-- `GroundObservation.epoch` (obs.py 139-145) -/
def epoch (o : GroundObservation) : Epoch := o.observer_state.epoch

/-- the ITRF position of the observed object (obs.py 153-156 and 165-168) -/
def itrfOb (o : GroundObservation) : Py Vec3 := do
  let lla_site ← PositionConvert.itrfToLla o.observer_state.position
  pure ((PositionConvert.enzToItrf lla_site o.observed_direction).plus o.observer_state.position)

/-- `GroundObservation.ijk_position` (obs.py 147-157) -/
def ijkPosition (o : GroundObservation) : Py Vec3 := do
  let itrf_ob ← o.itrfOb
  PositionConvert.itrfToIjk itrf_ob o.epoch

/-- `GroundObservation.gcrf_position` (obs.py 159-169) -/
def gcrfPosition (o : GroundObservation) : Py Vec3 := do
  let itrf_ob ← o.itrfOb
  PositionConvert.itrfToGcrf itrf_ob o.epoch

end GroundObservation

/-- the two concrete subclasses of `Observation` (obs.py 7-20, 23, 76) -/
inductive Observation
  | space (o : SpaceObservation)
  | ground (o : GroundObservation)

/-- dynamic dispatch of `Observation.ijk_position` (obs.py 13-14, 67, 147) -/
def Observation.ijkPosition : Observation → Py Vec3
  | .space o => o.ijkPosition
  | .ground o => o.ijkPosition

/-- dynamic dispatch of `Observation.epoch` (obs.py 16-17, 59, 139) -/
def Observation.epoch : Observation → Epoch
  | .space o => o.epoch
  | .ground o => o.epoch

end

end Openspace
