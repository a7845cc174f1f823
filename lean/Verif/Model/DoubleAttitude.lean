import Verif.Model.DoubleForces
import Verif.Model.DoubleVectors

/-!
# Attitude in double precision

The branches of `Spacecraft.update_attitude` and the slew times with every operation rounded to the nearest double, under the
conventions of `Model/DoubleEarth`.  A spacecraft is given by its position, its velocity and the value of its epoch.
-/

namespace Openspace.F64

noncomputable section

/-- the three body axes of a spacecraft (artificial.py 237-272) -/
structure Axes where
  body_x : Vec3
  body_y : Vec3
  body_z : Vec3

/-- `Spacecraft.earth_vector` (artificial.py 444-450) -/
def earthVector (pos : Vec3) : Vec3 := scaled pos (-1)

/-- `Spacecraft.sun_vector` (artificial.py 428-434), `GCRF.sun_vector` (states.py 268-274) -/
def sunVector (lib : Libm) (pos : Vec3) (e : ℝ) : Vec3 := minus (sunPosition lib e) pos

/-- `Spacecraft.target_vector` (artificial.py 452-460) -/
def targetVector (pos target : Vec3) : Vec3 := minus target pos

/-- branch `lvlh` of `update_attitude` (artificial.py 237-246) -/
def lvlhAxes (pos vel : Vec3) : Axes :=
  let z := earthVector pos
  let y := cross pos vel
  ⟨cross y z, y, z⟩

/-- branch `solar` of `update_attitude` (artificial.py 248-257) -/
def solarAxes (lib : Libm) (pos : Vec3) (e : ℝ) : Axes :=
  let z := scaled (sunVector lib pos e) (-1)
  let x := cross z ⟨0, 0, 1⟩
  ⟨x, cross z x, z⟩

/-- the assignments of branch `target` of `update_attitude` (artificial.py 265-272); `target` is the position of the target -/
def targetAxes (lib : Libm) (pos : Vec3) (e : ℝ) (target : Vec3) : Axes :=
  let z := targetVector pos target
  let y := cross z (sunVector lib pos e)
  ⟨cross y z, y, z⟩

/-- the end of a slew (artificial.py 284-285, 295-296, 311-312): `body_z` is the old axis, `direction` the new one -/
def slewStop (acos : ℝ → ℝ) (e scalar : ℝ) (body_z direction : Vec3) : Py ℝ := do
  let ang ← angle acos body_z direction
  pure (rnd (e + rnd (ang * scalar)))

end

end Openspace.F64
