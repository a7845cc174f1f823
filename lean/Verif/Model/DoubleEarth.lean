import Verif.Model.DoubleTime
import Verif.Model.DoubleStates

/-!
# The orientation of the Earth in double precision

Precession, nutation and rotation of the Earth and the conversions between GCRF and ITRF positions with every operation
rounded to the nearest double.  A constant written with decimals in the source is the double nearest to it.  The functions
of the C library are given as arbitrary functions.  An epoch is given by its value.  As in `Model/Double` the exponent
range is not bounded and zeros have no sign.
-/

namespace Openspace.F64

noncomputable section

/-- `Conversions.dms_to_radians` (functions.py 31-43) -/
def dmsToRadians (d m s : ℝ) : ℝ := radians (rnd (rnd (d + rnd (m / 60)) + rnd (s / 3600)))

/-- `Vector3D.rotation_matrix` (linalg.py 281-313) -/
def rotationMatrix (lib : Libm) (axis : Vec3) (theta : ℝ) : Py Mat3 := do
  let n ← normalized axis
  let c := lib.cos theta
  let s := lib.sin theta
  let cdiff := rnd (1 - c)
  pure
    ⟨⟨rnd (c + rnd (rnd (n.x * n.x) * cdiff)), rnd (rnd (rnd (n.x * n.y) * cdiff) - rnd (n.z * s)),
      rnd (rnd (rnd (n.x * n.z) * cdiff) + rnd (n.y * s))⟩,
     ⟨rnd (rnd (rnd (n.y * n.x) * cdiff) + rnd (n.z * s)), rnd (c + rnd (rnd (n.y * n.y) * cdiff)),
      rnd (rnd (rnd (n.y * n.z) * cdiff) - rnd (n.x * s))⟩,
     ⟨rnd (rnd (rnd (n.z * n.x) * cdiff) - rnd (n.y * s)), rnd (rnd (rnd (n.z * n.y) * cdiff) + rnd (n.x * s)),
      rnd (c + rnd (rnd (n.z * n.z) * cdiff))⟩⟩

/-- `Earth.obliquity_of_ecliptic_at_epoch` (celestial.py 72-89), with `Earth.OBLIQUITY_OF_ECLIPTIC` of line 67 -/
def obliquity (e : ℝ) : ℝ :=
  let t := julianCenturies e
  let a := dmsToRadians 0 0 (rnd 46.815)
  let b := dmsToRadians 0 0 (rnd 0.00059)
  let c := dmsToRadians 0 0 (rnd 0.001813)
  rnd (rnd (rnd (radians (rnd 23.43929111) - rnd (a * t)) - rnd (rnd (b * t) * t)) + rnd (rnd (rnd (c * t) * t) * t))

/-- `arg1` of `Earth.rotation` and `Earth.nutation` (celestial.py 109-110 and 166-167) -/
def nutArg1 (e : ℝ) : ℝ := radians (rnd (125 - rnd (rnd 0.05295 * rnd (julianValue e - 2451545))))

/-- `arg2` of `Earth.rotation` and `Earth.nutation` (celestial.py 111 and 168) -/
def nutArg2 (e : ℝ) : ℝ := radians (rnd (rnd 200.9 + rnd (rnd 1.97129 * rnd (julianValue e - 2451545))))

/-- `dpsi` of `Earth.rotation` and `Earth.nutation` (celestial.py 109-114 and 166-171) -/
def dpsi (lib : Libm) (e : ℝ) : ℝ :=
  rnd (rnd (radians (rnd (-0.0048)) * lib.sin (nutArg1 e)) - rnd (radians (rnd 0.0004) * lib.sin (nutArg2 e)))

/-- `deps` of `Earth.nutation` (celestial.py 166-174) -/
def deps (lib : Libm) (e : ℝ) : ℝ :=
  rnd (rnd (radians (rnd 0.0026) * lib.cos (nutArg1 e)) + rnd (radians (rnd 0.0002) * lib.cos (nutArg2 e)))

/-- `gast` of `Earth.rotation` (celestial.py 115-117) -/
def gast (lib : Libm) (e : ℝ) : ℝ := rnd (rnd (dpsi lib e * lib.cos (obliquity e)) + gha e)

/-- `Earth.rotation` (celestial.py 100-118) -/
def rotation (lib : Libm) (e : ℝ) : Py Mat3 := rotationMatrix lib ⟨0, 0, 1⟩ (-gast lib e)

/-- the angle `x` of `Earth.precession` (celestial.py 129-133) -/
def precX (e : ℝ) : ℝ :=
  let t := julianCenturies e
  let a := dmsToRadians 0 0 (rnd 2306.2181)
  let b := dmsToRadians 0 0 (rnd 0.30188)
  let c := dmsToRadians 0 0 (rnd 0.017998)
  rnd (rnd (rnd (a * t) + rnd (rnd (b * t) * t)) + rnd (rnd (rnd (c * t) * t) * t))

/-- the angle `y` of `Earth.precession` (celestial.py 129, 135-138) -/
def precY (e : ℝ) : ℝ :=
  let t := julianCenturies e
  let a := dmsToRadians 0 0 (rnd 2004.3109)
  let b := dmsToRadians 0 0 (rnd 0.42665)
  let c := dmsToRadians 0 0 (rnd 0.041833)
  rnd (rnd (rnd (a * t) - rnd (rnd (b * t) * t)) - rnd (rnd (rnd (c * t) * t) * t))

/-- the angle `z` of `Earth.precession` (celestial.py 129, 140-142) -/
def precZ (e : ℝ) : ℝ :=
  let t := julianCenturies e
  let a := dmsToRadians 0 0 (rnd 0.7928)
  let b := dmsToRadians 0 0 (rnd 0.000205)
  rnd (rnd (precX e + rnd (rnd (a * t) * t)) + rnd (rnd (rnd (b * t) * t) * t))

/-- `Earth.precession` (celestial.py 120-155) -/
def precession (lib : Libm) (e : ℝ) : Mat3 :=
  let sz := lib.sin (precZ e)
  let sy := lib.sin (precY e)
  let sx := lib.sin (precX e)
  let cz := lib.cos (precZ e)
  let cy := lib.cos (precY e)
  let cx := lib.cos (precX e)
  ⟨⟨rnd (rnd (-sz * sx) + rnd (rnd (cz * cy) * cx)), rnd (rnd (-sz * cx) - rnd (rnd (cz * cy) * sx)), rnd (-cz * sy)⟩,
   ⟨rnd (rnd (cz * sx) + rnd (rnd (sz * cy) * cx)), rnd (rnd (cz * cx) - rnd (rnd (sz * cy) * sx)), rnd (-sz * sy)⟩,
   ⟨rnd (sy * cx), rnd (-sy * sx), cy⟩⟩

/-- `Earth.nutation` (celestial.py 157-184) -/
def nutation (lib : Libm) (e : ℝ) : Mat3 :=
  let dpsi := dpsi lib e
  let deps := deps lib e
  let ce := lib.cos (obliquity e)
  let se := lib.sin (obliquity e)
  ⟨⟨1, rnd (-dpsi * ce), rnd (-dpsi * se)⟩,
   ⟨rnd (dpsi * ce), 1, -deps⟩,
   ⟨rnd (dpsi * se), deps, 1⟩⟩

/-- `_PositionConvertGCRF.to_mod` (positions.py 138-149) -/
def gcrfToMod (lib : Libm) (pos : Vec3) (e : ℝ) : Vec3 := mulVec (precession lib e) pos

/-- `_PositionConvertGCRF.to_tod` (positions.py 125-136) -/
def gcrfToTod (lib : Libm) (pos : Vec3) (e : ℝ) : Vec3 := mulVec (nutation lib e) (gcrfToMod lib pos e)

/-- `_PositionConvertGCRF.to_itrf` (positions.py 112-123) -/
def gcrfToItrf (lib : Libm) (pos : Vec3) (e : ℝ) : Py Vec3 := do
  let m ← rotation lib e
  pure (mulVec m (gcrfToTod lib pos e))

/-- `_PositionConvertITRF.to_tod` (positions.py 181-192) -/
def itrfToTod (lib : Libm) (pos : Vec3) (e : ℝ) : Py Vec3 := do
  let m ← rotation lib e
  pure (mulVec m.transpose pos)

/-- `_PositionConvertITRF.to_mod` (positions.py 194-205) -/
def itrfToMod (lib : Libm) (pos : Vec3) (e : ℝ) : Py Vec3 := do
  let p ← itrfToTod lib pos e
  pure (mulVec (nutation lib e).transpose p)

/-- `_PositionConvertITRF.to_gcrf` (positions.py 168-179) -/
def itrfToGcrf (lib : Libm) (pos : Vec3) (e : ℝ) : Py Vec3 := do
  let p ← itrfToMod lib pos e
  pure (mulVec (precession lib e).transpose p)

end

end Openspace.F64
