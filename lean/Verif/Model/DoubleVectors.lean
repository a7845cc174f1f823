import Verif.Model.DoubleElements
import Verif.Model.Positions

/-!
# Angles between vectors and spherical coordinates in double precision

`Vector3D.angle` and `SphericalPosition` with every operation rounded to the nearest double.  The functions of the C
library are given as arbitrary functions.  As in `Model/Double` the exponent range is not bounded and zeros have no sign.
-/

namespace Openspace.F64

noncomputable section

/-- `Vector3D.angle` (linalg.py 265-278), `acos` is the arccosine of the C library -/
def angle (acos : ℝ → ℝ) (a b : Vec3) : Py ℝ := do
  let arg ← div (dot a b) (rnd (magnitude a * magnitude b))
  let arg := if arg > 1 then 1 else if arg < -1 then -1 else arg
  pure (acos arg)

/-- `SphericalPosition.from_cartesian` (positions.py 28-41) -/
def fromCartesian (lib : Libm) (pos : Vec3) : SphericalPosition :=
  let ra := wrapNeg (lib.atan2 pos.y pos.x)
  let dec := lib.atan2 pos.z (rnd (sqrtNN (rnd (rnd (pos.x * pos.x) + rnd (pos.y * pos.y)))))
  ⟨magnitude pos, ra, dec⟩

/-- `SphericalPosition.to_cartesian` (positions.py 43-53) -/
def toCartesian (lib : Libm) (s : SphericalPosition) : Vec3 :=
  let cd := lib.cos s.declination
  scaled ⟨rnd (cd * lib.cos s.right_ascension), rnd (cd * lib.sin s.right_ascension), lib.sin s.declination⟩ s.radius

end

end Openspace.F64
