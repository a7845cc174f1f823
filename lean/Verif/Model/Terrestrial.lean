import Verif.Model.Artificial
import Verif.Model.Obs

/-!
# Model of `/repo/src/openspace/bodies/terrestrial.py`
-/

namespace Openspace

noncomputable section

/-- `GroundSite` (terrestrial.py 8-24) -/
@[ext] structure GroundSite where
  itrf_position : Vec3
  latitude : ℝ
  longitude : ℝ
  enz_matrix : Mat3

namespace GroundSite

/-- `GroundSite.__init__` (terrestrial.py 9-24) -/
def new (lla : LLA) : Py GroundSite := do
  let p ← PositionConvert.llaToItrf lla
  pure ⟨p, lla.latitude, lla.longitude, enzMatrix lla.longitude lla.latitude⟩

/-- `GroundSite.from_itrf_position` (terrestrial.py 26-35) -/
def fromItrfPosition (itrf : Vec3) : Py GroundSite := do
  let l ← PositionConvert.itrfToLla itrf
  new l

/-- `GroundSite.enz_position` (terrestrial.py 37-45) -/
def enzPosition (g : GroundSite) (obj_itrf : Vec3) : Vec3 :=
  g.enz_matrix.mulVec (obj_itrf.minus g.itrf_position)

/-- `GroundSite.angles_and_range` (terrestrial.py 47-61) -/
def anglesAndRange {ι : Type} (g : GroundSite) (target : Spacecraft ι) : Py GroundObservation := do
  let p ← PositionConvert.gcrfToItrf target.position target.currentEpoch
  pure (GroundObservation.new (State.fromFixed target.currentEpoch g.itrf_position)
    (g.enzPosition p) 0 0)

end GroundSite

end

end Openspace
