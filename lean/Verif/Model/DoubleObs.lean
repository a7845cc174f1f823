import Verif.Model.DoubleGround
import Verif.Model.DoublePositions
import Verif.Model.DoubleSunMoon

/-!
# Inertial positions of observations in double precision

Conventions as in `Model/DoubleEarth`.
-/

namespace Openspace.F64

noncomputable section

/-- `_PositionConvertENZ.to_itrf` (positions.py 310-321) -/
def enzToItrf (lib : Libm) (lla : LLA) (enz : Vec3) : Vec3 :=
  mulVec (enzMatrix lib lla.longitude lla.latitude).transpose enz

/-- `_PositionConvertITRF.to_ijk` (positions.py 266-277) -/
def itrfToIjk (lib : Libm) (pos : Vec3) (e : ℝ) : Py Vec3 := rotationAboutAxis lib pos ⟨0, 0, 1⟩ (gha e)

/-- `_PositionConvertGCRF.to_ijk` (positions.py 151-162) -/
def gcrfToIjk (lib : Libm) (pos : Vec3) (e : ℝ) : Py Vec3 := do
  let p ← gcrfToItrf lib pos e
  itrfToIjk lib p e

/-- `SpaceObservation.ijk_position` (obs.py 67-73) -/
def spaceIjkPosition (lib : Libm) (o : SpaceObservation) : Py Vec3 :=
  gcrfToIjk lib (plus o.observer_state.position o.observed_direction) o.epoch.value

/-- the ITRF position of the observed object (obs.py 153-156 and 165-168) -/
def groundItrfOb (lib : Libm) (o : GroundObservation) : Py Vec3 := do
  let lla_site ← itrfToLla lib o.observer_state.position
  pure (plus (enzToItrf lib lla_site o.observed_direction) o.observer_state.position)

/-- `GroundObservation.ijk_position` (obs.py 147-157) -/
def groundIjkPosition (lib : Libm) (o : GroundObservation) : Py Vec3 := do
  let itrf_ob ← groundItrfOb lib o
  itrfToIjk lib itrf_ob o.epoch.value

/-- `GroundObservation.gcrf_position` (obs.py 159-169) -/
def groundGcrfPosition (lib : Libm) (o : GroundObservation) : Py Vec3 := do
  let itrf_ob ← groundItrfOb lib o
  itrfToGcrf lib itrf_ob o.epoch.value

end

end Openspace.F64
