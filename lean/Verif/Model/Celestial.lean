import Verif.Model.Time

/-!
# Model of `/repo/src/openspace/bodies/celestial.py`
-/

namespace Openspace

noncomputable section

namespace Earth

/-- `Earth.C` (celestial.py 15-32).  Divisors are non-zero literals. -/
def C : List (List ℝ) :=
  [ [1],
    [0, 0],
    [-0.484165143790815e-3 / sqrtNN 0.2, -0.206615509074176e-9 / sqrtNN 0.6,
      0.243938357328313e-5 / sqrtNN 2.4],
    [ 0.957161207093473e-6 / sqrtNN (1 / 7),
      0.203046201047864e-5 / sqrtNN (6 / 7),
      0.904787894809528e-6 / sqrtNN (60 / 7),
      0.721321757121568e-6 / sqrtNN (360 / 7) ],
    [ 0.539965866638991e-6 / sqrtNN (24 / 216),
      -0.536157389388867e-6 / sqrtNN (10 / 9),
      0.350501623962649e-6 / sqrtNN 20,
      0.990856766672321e-6 / sqrtNN 280,
      -0.188519633023033e-6 / sqrtNN 2240 ] ]

/-- `Earth.S` (celestial.py 35-52).  Divisors are non-zero literals. -/
def S : List (List ℝ) :=
  [ [0],
    [0, 0],
    [0, 0.138441389137979e-8 / sqrtNN 0.6, -0.140027370385934e-5 / sqrtNN 2.4],
    [ 0,
      0.248200415856872e-6 / sqrtNN (6 / 7),
      -0.619005475177618e-6 / sqrtNN (60 / 7),
      0.141434926192941e-5 / sqrtNN (360 / 7) ],
    [ 0,
      -0.473567346518086e-6 / sqrtNN (10 / 9),
      0.662480026275829e-6 / sqrtNN 20,
      -0.200956723567452e-6 / sqrtNN 280,
      0.308803882149194e-6 / sqrtNN 2240 ] ]

/-- `Earth.DEGREE_AND_ORDER = len(S)` (celestial.py 55) -/
def DEGREE_AND_ORDER : Nat := S.length

/-- `Earth.MU` (celestial.py 58) -/
def MU : ℝ := 398600.4418

/-- `Earth.RADIUS` (celestial.py 61) -/
def RADIUS : ℝ := 6378.137

/-- `Earth.FLATTENING` (celestial.py 64) -/
def FLATTENING : ℝ := 1 / 298.2572235

/-- `Earth.OBLIQUITY_OF_ECLIPTIC` (celestial.py 67) -/
def OBLIQUITY_OF_ECLIPTIC : ℝ := pyRadians 23.43929111

/-- `Earth.obliquity_of_ecliptic_at_epoch` (celestial.py 72-89) -/
def obliquityAt (epoch : Epoch) : ℝ :=
  let t := epoch.julianCenturies
  let a := dmsToRadians 0 0 46.815
  let b := dmsToRadians 0 0 0.00059
  let c := dmsToRadians 0 0 0.001813
  OBLIQUITY_OF_ECLIPTIC - a * t - b * t * t + c * t * t * t

/-- `Earth.geo_radius` (celestial.py 91-98) -/
def geoRadius : Py ℝ := aFromMuTau MU SECONDS_IN_SIDEREAL_DAY

/-- the nutation in longitude `dpsi` (celestial.py 109-114, repeated at 166-171) -/
def dpsiAt (epoch : Epoch) : ℝ :=
  let d := epoch.julianValue - Epoch.J2000_JULIAN_DATE
  let arg1 := pyRadians (125.0 - 0.05295 * d)
  let arg2 := pyRadians (200.9 + 1.97129 * d)
  let a := pyRadians (-0.0048)
  let b := pyRadians 0.0004
  a * pySin arg1 - b * pySin arg2

/-- the nutation in obliquity `deps` (celestial.py 166-174) -/
def depsAt (epoch : Epoch) : ℝ :=
  let d := epoch.julianValue - Epoch.J2000_JULIAN_DATE
  let arg1 := pyRadians (125.0 - 0.05295 * d)
  let arg2 := pyRadians (200.9 + 1.97129 * d)
  let a := pyRadians 0.0026
  let b := pyRadians 0.0002
  a * pyCos arg1 + b * pyCos arg2

/-- `Earth.rotation` (celestial.py 100-118) -/
def rotation (epoch : Epoch) : Py Mat3 :=
  let dpsi := dpsiAt epoch
  let eps := obliquityAt epoch
  let gmst := epoch.gha
  let gast := dpsi * pyCos eps + gmst
  Vec3.rotationMatrix ⟨0, 0, 1⟩ (-gast)

/-- `Earth.precession` (celestial.py 120-155) -/
def precession (epoch : Epoch) : Mat3 :=
  let t := epoch.julianCenturies
  let x := dmsToRadians 0 0 2306.2181 * t + dmsToRadians 0 0 0.30188 * t * t
    + dmsToRadians 0 0 0.017998 * t * t * t
  let y := dmsToRadians 0 0 2004.3109 * t - dmsToRadians 0 0 0.42665 * t * t
    - dmsToRadians 0 0 0.041833 * t * t * t
  let z := x + dmsToRadians 0 0 0.7928 * t * t + dmsToRadians 0 0 0.000205 * t * t * t
  let sz := pySin z
  let sy := pySin y
  let sx := pySin x
  let cz := pyCos z
  let cy := pyCos y
  let cx := pyCos x
  ⟨⟨-sz * sx + cz * cy * cx, -sz * cx - cz * cy * sx, -cz * sy⟩,
   ⟨cz * sx + sz * cy * cx, cz * cx - sz * cy * sx, -sz * sy⟩,
   ⟨sy * cx, -sy * sx, cy⟩⟩

/-- `Earth.nutation` (celestial.py 157-184) -/
def nutation (epoch : Epoch) : Mat3 :=
  let dpsi := dpsiAt epoch
  let deps := depsAt epoch
  let eps := obliquityAt epoch
  let ce := pyCos eps
  let se := pySin eps
  ⟨⟨1.0, -dpsi * ce, -dpsi * se⟩,
   ⟨dpsi * ce, 1.0, -deps⟩,
   ⟨dpsi * se, deps, 1.0⟩⟩

end Earth

namespace Sun

/-- `Sun.W_PLUS_W` (celestial.py 192) -/
def W_PLUS_W : ℝ := pyRadians 282.94

/-- `Sun.COS_OBLIQUITY` (celestial.py 195) -/
def COS_OBLIQUITY : ℝ := pyCos Earth.OBLIQUITY_OF_ECLIPTIC

/-- `Sun.SIN_OBLIQUITY` (celestial.py 198) -/
def SIN_OBLIQUITY : ℝ := pySin Earth.OBLIQUITY_OF_ECLIPTIC

/-- `Sun.MU` (celestial.py 201) -/
def MU : ℝ := 1.327124400419e11

/-- `Sun.P` (celestial.py 204) -/
def P : ℝ := 4.56e-6

/-- `Sun.AU` (celestial.py 207) -/
def AU : ℝ := 149597870.691

/-- `Sun.get_position` (celestial.py 209-238) -/
def getPosition (epoch : Epoch) : Vec3 :=
  let a := dmsToRadians 0 0 6892
  let b := dmsToRadians 0 0 72
  let t := epoch.julianCenturies
  let ma := pyRadians (357.5256 + 35999.049 * t)
  let sma := pySin ma
  let cma := pyCos ma
  let c2ma := pyCos (2 * ma)
  let lam := W_PLUS_W + ma + a * sma + b * 2 * sma * cma
  let r := (149.619 - 2.499 * cma - 0.021 * c2ma) * 1e6
  let slam := pySin lam
  ⟨r * pyCos lam, r * slam * COS_OBLIQUITY, r * slam * SIN_OBLIQUITY⟩

end Sun

namespace Moon

/-- `Moon.MU` (celestial.py 245) -/
def MU : ℝ := 4902.800305555

/-- `Moon.RADIUS` (celestial.py 248) -/
def RADIUS : ℝ := 1737.4000

/-- `Moon.get_position` (celestial.py 250-346).  The Python variables `a0 .. a13` are inlined. -/
def getPosition (epoch : Epoch) : Py Vec3 :=
  let t := epoch.julianCenturies
  let l0 := pyRadians (218.31617 + 481267.88088 * t - 1.3972 * t)
  let l := pyRadians (134.96292 + 477198.86753 * t)
  let lp := pyRadians (357.52543 + 35999.04944 * t)
  let f := pyRadians (93.27283 + 483202.01873 * t)
  let d := pyRadians (297.85027 + 445267.11135 * t)
  let lam := l0
    + dmsToRadians 0 0 22640.0 * pySin l
    + dmsToRadians 0 0 769.0 * pySin (2 * l)
    - dmsToRadians 0 0 4586.0 * pySin (l - 2.0 * d)
    + dmsToRadians 0 0 2370.0 * pySin (2.0 * d)
    - dmsToRadians 0 0 668.0 * pySin lp
    - dmsToRadians 0 0 412.0 * pySin (2.0 * f)
    - dmsToRadians 0 0 212.0 * pySin (2.0 * l - 2.0 * d)
    - dmsToRadians 0 0 206.0 * pySin (l + lp - 2.0 * d)
    + dmsToRadians 0 0 192.0 * pySin (l + 2.0 * d)
    - dmsToRadians 0 0 165.0 * pySin (lp - 2.0 * d)
    + dmsToRadians 0 0 148.0 * pySin (l - lp)
    - dmsToRadians 0 0 125.0 * pySin d
    - dmsToRadians 0 0 110.0 * pySin (l + lp)
    - dmsToRadians 0 0 55.0 * pySin (2.0 * f - 2.0 * d)
  let beta :=
    dmsToRadians 0 0 18520.0 * pySin (f + lam - l0
        + dmsToRadians 0 0 412.0 * pySin (2.0 * f + dmsToRadians 0 0 541.0 * pySin lp))
    - dmsToRadians 0 0 526.0 * pySin (f - 2.0 * d)
    + dmsToRadians 0 0 44.0 * pySin (l + f - 2.0 * d)
    - dmsToRadians 0 0 31.0 * pySin (-l + f - 2.0 * d)
    - dmsToRadians 0 0 25.0 * pySin (-2.0 * l + f)
    - dmsToRadians 0 0 23.0 * pySin (lp + f - 2.0 * d)
    + dmsToRadians 0 0 21.0 * pySin (-l + f)
    + dmsToRadians 0 0 11.0 * pySin (-lp + f - 2.0 * d)
  let r := 385000.0
    - 20905.0 * pyCos l
    - 3699.0 * pyCos (2.0 * d - l)
    - 2956.0 * pyCos (2.0 * d)
    - 570.0 * pyCos (2.0 * l)
    + 246.0 * pyCos (2.0 * l - 2.0 * d)
    - 205.0 * pyCos (lp - 2.0 * d)
    - 171.0 * pyCos (l + 2.0 * d)
    - 152.0 * pyCos (l + lp - 2.0 * d)
  let x := r * pyCos lam * pyCos beta
  let y := r * pySin lam * pyCos beta
  let z := r * pySin beta
  let eps := Earth.OBLIQUITY_OF_ECLIPTIC
  Vec3.rotationAboutAxis ⟨x, y, z⟩ ⟨1, 0, 0⟩ eps

end Moon

end

end Openspace
