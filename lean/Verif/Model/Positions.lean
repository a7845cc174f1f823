import Verif.Model.Celestial

/-!
# Model of `/repo/src/openspace/coordinates/positions.py`
-/

namespace Openspace

noncomputable section

/-- `SphericalPosition` (positions.py 9-27) -/
@[ext] structure SphericalPosition where
  radius : ℝ
  right_ascension : ℝ
  declination : ℝ

/-- `SphericalPosition.from_cartesian` (positions.py 29-42) -/
def SphericalPosition.fromCartesian (pos : Vec3) : SphericalPosition :=
  let ra := wrapNeg (pyAtan2 pos.y pos.x)
  let dec := pyAtan2 pos.z (sqrtNN (pos.x * pos.x + pos.y * pos.y))
  ⟨pos.magnitude, ra, dec⟩

/-- `SphericalPosition.to_cartesian` (positions.py 44-53) -/
def SphericalPosition.toCartesian (p : SphericalPosition) : Vec3 :=
  let cd := pyCos p.declination
  Vec3.scaled
    ⟨cd * pyCos p.right_ascension, cd * pySin p.right_ascension, pySin p.declination⟩ p.radius

/-- `ENZ.matrix` (positions.py 57-77) -/
def enzMatrix (lamb psi : ℝ) : Mat3 :=
  let slamb := pySin lamb
  let clamb := pyCos lamb
  let spsi := pySin psi
  let cpsi := pyCos psi
  ⟨⟨-slamb, clamb, 0.0⟩,
   ⟨-spsi * clamb, -spsi * slamb, cpsi⟩,
   ⟨cpsi * clamb, cpsi * slamb, spsi⟩⟩

/-- `LLA` (positions.py 80-98) -/
@[ext] structure LLA where
  latitude : ℝ
  longitude : ℝ
  altitude : ℝ

/-- `LLA.copy` (positions.py 100-106) -/
def LLA.copy (l : LLA) : LLA := ⟨l.latitude, l.longitude, l.altitude⟩

namespace PositionConvert

/-- `_PositionConvertGCRF.to_mod` (positions.py 138-149) -/
def gcrfToMod (pos : Vec3) (epoch : Epoch) : Vec3 := (Earth.precession epoch).mulVec pos

/-- `_PositionConvertGCRF.to_tod` (positions.py 125-136) -/
def gcrfToTod (pos : Vec3) (epoch : Epoch) : Vec3 :=
  (Earth.nutation epoch).mulVec (gcrfToMod pos epoch)

/-- `_PositionConvertGCRF.to_itrf` (positions.py 112-123) -/
def gcrfToItrf (pos : Vec3) (epoch : Epoch) : Py Vec3 := do
  let m ← Earth.rotation epoch
  pure (m.mulVec (gcrfToTod pos epoch))

/-- `_PositionConvertITRF.to_tod` (positions.py 181-192) -/
def itrfToTod (pos : Vec3) (epoch : Epoch) : Py Vec3 := do
  let m ← Earth.rotation epoch
  pure (m.transpose.mulVec pos)

/-- `_PositionConvertITRF.to_mod` (positions.py 194-205) -/
def itrfToMod (pos : Vec3) (epoch : Epoch) : Py Vec3 := do
  let p ← itrfToTod pos epoch
  pure ((Earth.nutation epoch).transpose.mulVec p)

/-- `_PositionConvertITRF.to_gcrf` (positions.py 168-179) -/
def itrfToGcrf (pos : Vec3) (epoch : Epoch) : Py Vec3 := do
  let p ← itrfToMod pos epoch
  pure ((Earth.precession epoch).transpose.mulVec p)

/-- `_PositionConvertITRF.to_ijk` (positions.py 266-277) -/
def itrfToIjk (pos : Vec3) (epoch : Epoch) : Py Vec3 :=
  pos.rotationAboutAxis ⟨0, 0, 1⟩ epoch.gha

/-- `_PositionConvertGCRF.to_ijk` (positions.py 151-162) -/
def gcrfToIjk (pos : Vec3) (epoch : Epoch) : Py Vec3 := do
  let p ← gcrfToItrf pos epoch
  itrfToIjk p epoch

/-- `_PositionConvertITRF.to_lla` (positions.py 207-264).  The divisors `a2`, `b2`, `eps2`,
`e2 * eps2` are non-zero constants; all other divisions and square roots are checked. -/
def itrfToLla (pos : Vec3) : Py LLA := do
  let x := pos.x
  let y := pos.y
  let z := pos.z
  let a := Earth.RADIUS
  let a2 := a * a
  let f := Earth.FLATTENING
  let b := a - f * a
  let b2 := b * b
  let e2 := 1 - b2 / a2
  let eps2 := a2 / b2 - 1.0
  let rho := sqrtNN (x * x + y * y)
  let p := pyAbs z / eps2
  let s := rho * rho / (e2 * eps2)
  let q := p * p - b2 + s
  let sq ← pySqrt q
  let u ← pyDiv p sq
  let v ← pyDiv (b2 * u * u) q
  let cap_p ← pyDiv (27.0 * v * s) q
  let sp1 ← pySqrt (cap_p + 1)
  let sp ← pySqrt cap_p
  let cap_q ← pyPow (sp1 + sp) (2.0 / 3.0)
  let qinv ← pyDiv 1.0 cap_q
  let t := (1.0 + cap_q + qinv) / 6.0
  let c ← pySqrt (u * u - 1.0 + 2.0 * t)
  let w := (c - u) / 2.0
  let st ← pySqrt (t * t + v)
  let base0 := st - u * w - t / 2.0 - 0.25
  let base := if base0 < 0 then 0 else base0
  let sb ← pySqrt base
  let arg := w + sb
  let d := pySign z * sq * arg
  let sn ← pySqrt (1.0 + eps2 * d * d / b2)
  let n := a * sn
  let dn ← pyDiv d n
  let arg2 := (eps2 + 1.0) * dn
  let lamb ← pyAsin arg2
  let an ← pyDiv a2 n
  let h := rho * pyCos lamb + z * pySin lamb - an
  let phi0 := pyAtan2 y x
  let phi := if phi0 < 0 then phi0 + pyPi * 2.0 else phi0
  pure ⟨lamb, phi, h⟩

/-- `_PositionConvertLLA.to_itrf` (positions.py 283-304) -/
def llaToItrf (lla : LLA) : Py Vec3 := do
  let lat := lla.latitude
  let longitude := lla.longitude
  let alt := lla.altitude
  let f := Earth.FLATTENING
  let e ← pySqrt (f * (2 - f))
  let slat := pySin lat
  let clat := pyCos lat
  let den ← pySqrt (1 - e * e * slat * slat)
  let n ← pyDiv Earth.RADIUS den
  pure ⟨(n + alt) * clat * pyCos longitude, (n + alt) * clat * pySin longitude,
    (n * (1.0 - e * e) + alt) * slat⟩

/-- `_PositionConvertENZ.to_itrf` (positions.py 310-321) -/
def enzToItrf (lla : LLA) (enz : Vec3) : Vec3 :=
  (enzMatrix lla.longitude lla.latitude).transpose.mulVec enz

end PositionConvert

end

end Openspace
