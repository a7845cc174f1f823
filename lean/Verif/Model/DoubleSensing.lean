import Verif.Model.DoubleVectors
import Verif.Model.Hardware

/-!
# Detection in double precision

`Spacecraft.visual_magnitude` and `Spacecraft.detect` with every operation rounded to the nearest double.  The vectors
from the observer to the Sun, the Earth, the Moon and the target are given: they are what `sun_vector`, `earth_vector`,
`moon_vector` and `target_vector` return.  The functions of the C library are given as arbitrary functions.  As in
`Model/Double` the exponent range is not bounded and zeros have no sign.
-/

namespace Openspace.F64

noncomputable section

/-- the functions of the `math` module used in artificial.py (line 1) -/
structure SkyLib extends Libm where
  acos : ℝ → ℝ
  log10 : ℝ → ℝ

/-- the phase function `sin(phi) + (pi - phi) * cos(phi)` (artificial.py 363) for the angle `sa` between Sun and target
(line 360) -/
def phase (lib : Libm) (sa : ℝ) : ℝ :=
  let phi := rnd (pi - sa)
  rnd (lib.sin phi + rnd (rnd (pi - phi) * lib.cos phi))

/-- `fdiff` of `Spacecraft.visual_magnitude` (artificial.py 363) -/
def fdiff (lib : Libm) (albedo r dist sa : ℝ) : Py ℝ := do
  let k ← div (rnd (rnd (rnd (rnd (2 / 3) * albedo) * r) * r)) (rnd (rnd (pi * dist) * dist))
  pure (rnd (k * phase lib sa))

/-- `math.log10` -/
def log10 (lib : SkyLib) (x : ℝ) : Py ℝ := if x ≤ 0 then .error .valueError else .ok (lib.log10 x)

/-- `Spacecraft.visual_magnitude` (artificial.py 345-364): `sun` is `sun_vector()`, `target` is `target_vector(target)`,
`albedo` and `r` are the attributes `albedo` and `body_radius` -/
def visualMagnitude (lib : SkyLib) (albedo r : ℝ) (sun target : Vec3) : Py ℝ := do
  let dist := magnitude target
  let sa ← angle lib.acos sun target
  let fd ← fdiff lib.toLibm albedo r dist sa
  let l ← log10 lib fd
  pure (rnd (rnd (-26.74) - rnd (2.5 * l)))

/-- `Spacecraft.detect` (artificial.py 324-343): `limits` is `wfov.limits`, `body_z` the direction of the camera -/
def detect (lib : SkyLib) (limits : OpticalConstraints) (albedo r : ℝ) (sun earth moon target body_z : Vec3) :
    Py Bool := do
  let sa ← angle lib.acos sun target
  if sa < limits.sun_soft then pure false
  else do
    let ea ← angle lib.acos earth target
    if ea < limits.earth then pure false
    else do
      let ma ← angle lib.acos moon target
      if ma < limits.moon then pure false
      else do
        let vm ← visualMagnitude lib albedo r sun target
        if vm > limits.vismag then pure false
        else do
          let ba ← angle lib.acos body_z target
          if ba > limits.bore then pure false
          else pure true

end

end Openspace.F64
