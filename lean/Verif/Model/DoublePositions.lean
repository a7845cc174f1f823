import Verif.Model.DoubleElements
import Verif.Model.Positions

/-!
# Geodetic coordinates in double precision

`Model/Positions` has `_PositionConvertITRF.to_lla` with real arithmetic.  Here every operation is rounded to the
nearest double; the functions of the C library are arbitrary.  As in `Model/Double` the exponent range is not bounded
and zeros have no sign.
-/

namespace Openspace.F64

noncomputable section

/-- `Earth.RADIUS` (celestial.py 61) -/
def geoA : ℝ := rnd Earth.RADIUS

/-- `Earth.FLATTENING` (celestial.py 64) -/
def geoF : ℝ := rnd (1 / rnd 298.2572235)

/-- `a2` (positions.py 222) -/
def geoA2 : ℝ := rnd (geoA * geoA)

/-- `b` (positions.py 224) -/
def geoB : ℝ := rnd (geoA - rnd (geoF * geoA))

/-- `b2` (positions.py 225) -/
def geoB2 : ℝ := rnd (geoB * geoB)

/-- `e2` (positions.py 226) -/
def geoE2 : ℝ := rnd (1 - rnd (geoB2 / geoA2))

/-- `eps2` (positions.py 227) -/
def geoEps2 : ℝ := rnd (rnd (geoA2 / geoB2) - 1)

/-- `math.asin`: raises outside the domain -/
def asin (lib : Libm) (x : ℝ) : Py ℝ := if x < -1 ∨ 1 < x then .error .valueError else .ok (lib.asin x)

/-- `**` with the exponent `2.0 / 3.0` (positions.py 239): a Python `complex` for a negative base -/
def pow23 (lib : Libm) (x : ℝ) : Py ℝ := if x < 0 then .error .complexValue else .ok (lib.pow x (rnd (2 / 3)))

/-- `d` of `_PositionConvertITRF.to_lla` (positions.py 230-251), from `rho` and `z` -/
def footHeight (lib : Libm) (rho z : ℝ) : Py ℝ := do
  let p := rnd (|z| / geoEps2)
  let s := rnd (rnd (rho * rho) / rnd (geoE2 * geoEps2))
  let q := rnd (rnd (rnd (p * p) - geoB2) + s)
  let sq ← sqrt q
  let u ← div p sq
  let v ← div (rnd (rnd (geoB2 * u) * u)) q
  let cap_p ← div (rnd (rnd (27 * v) * s)) q
  let sp1 ← sqrt (rnd (cap_p + 1))
  let sp ← sqrt cap_p
  let cap_q ← pow23 lib (rnd (sp1 + sp))
  let qinv ← div 1 cap_q
  let t := rnd (rnd (rnd (1 + cap_q) + qinv) / 6)
  let c ← sqrt (rnd (rnd (rnd (u * u) - 1) + rnd (2 * t)))
  let w := rnd (rnd (c - u) / 2)
  let st ← sqrt (rnd (rnd (t * t) + v))
  let base0 := rnd (rnd (rnd (st - rnd (u * w)) - rnd (t / 2)) - 0.25)
  let base := if base0 < 0 then 0 else base0
  let sb ← sqrt base
  let arg := rnd (w + sb)
  pure (rnd (rnd (pySign z * sq) * arg))

/-- `_PositionConvertITRF.to_lla` (positions.py 207-264) -/
def itrfToLla (lib : Libm) (pos : Vec3) : Py LLA := do
  let rho := rnd (sqrtNN (rnd (rnd (pos.x * pos.x) + rnd (pos.y * pos.y))))
  let d ← footHeight lib rho pos.z
  let sn ← sqrt (rnd (1 + rnd (rnd (rnd (geoEps2 * d) * d) / geoB2)))
  let n := rnd (geoA * sn)
  let dn ← div d n
  let lamb ← asin lib (rnd (rnd (geoEps2 + 1) * dn))
  let an ← div geoA2 n
  let h := rnd (rnd (rnd (rho * lib.cos lamb) + rnd (pos.z * lib.sin lamb)) - an)
  let phi0 := lib.atan2 pos.y pos.x
  let phi := if phi0 < 0 then rnd (phi0 + rnd (pi * 2)) else phi0
  pure ⟨lamb, phi, h⟩

end

end Openspace.F64
