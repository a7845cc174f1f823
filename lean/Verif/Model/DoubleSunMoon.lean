import Verif.Model.DoubleEarth

/-!
# The Sun and the Moon in double precision

`Sun.get_position` and `Moon.get_position` with every operation rounded to the nearest double, under the conventions of
`Model/DoubleEarth`.
-/

namespace Openspace.F64

noncomputable section

/-- `Earth.OBLIQUITY_OF_ECLIPTIC` (celestial.py 67) -/
def OBLIQUITY : ℝ := radians (rnd 23.43929111)

/-- `Vector3D.rotation_about_axis` (linalg.py 315-325) -/
def rotationAboutAxis (lib : Libm) (v axis : Vec3) (theta : ℝ) : Py Vec3 := do
  let m ← rotationMatrix lib axis theta
  pure (mulVec m v)

/-- `lam` of `Sun.get_position` (celestial.py 218-228), with `Sun.W_PLUS_W` of line 192; `ma` is the mean anomaly -/
def sunLongitude (lib : Libm) (ma : ℝ) : ℝ :=
  let a := dmsToRadians 0 0 6892
  let b := dmsToRadians 0 0 72
  let sma := lib.sin ma
  let cma := lib.cos ma
  rnd (rnd (rnd (radians (rnd 282.94) + ma) + rnd (a * sma)) + rnd (rnd (rnd (b * 2) * sma) * cma))

/-- `r` of `Sun.get_position` (celestial.py 225-229) -/
def sunDistance (lib : Libm) (ma : ℝ) : ℝ :=
  rnd (rnd (rnd (rnd 149.619 - rnd (rnd 2.499 * lib.cos ma)) - rnd (rnd 0.021 * lib.cos (rnd (2 * ma)))) * 1e6)

/-- `Sun.get_position` (celestial.py 209-238), with `Sun.COS_OBLIQUITY` and `Sun.SIN_OBLIQUITY` of lines 195 and 198 -/
def sunPosition (lib : Libm) (e : ℝ) : Vec3 :=
  let t := julianCenturies e
  let ma := radians (rnd (rnd 357.5256 + rnd (rnd 35999.049 * t)))
  let lam := sunLongitude lib ma
  let r := sunDistance lib ma
  let slam := lib.sin lam
  ⟨rnd (r * lib.cos lam), rnd (rnd (r * slam) * lib.cos OBLIQUITY), rnd (rnd (r * slam) * lib.sin OBLIQUITY)⟩

/-- `lam` of `Moon.get_position` (celestial.py 266-298) -/
def moonLongitude (lib : Libm) (l0 l lp f d : ℝ) : ℝ :=
  let s1 := rnd (l0 + rnd (dmsToRadians 0 0 22640 * lib.sin l))
  let s2 := rnd (s1 + rnd (dmsToRadians 0 0 769 * lib.sin (rnd (2 * l))))
  let s3 := rnd (s2 - rnd (dmsToRadians 0 0 4586 * lib.sin (rnd (l - rnd (2 * d)))))
  let s4 := rnd (s3 + rnd (dmsToRadians 0 0 2370 * lib.sin (rnd (2 * d))))
  let s5 := rnd (s4 - rnd (dmsToRadians 0 0 668 * lib.sin lp))
  let s6 := rnd (s5 - rnd (dmsToRadians 0 0 412 * lib.sin (rnd (2 * f))))
  let s7 := rnd (s6 - rnd (dmsToRadians 0 0 212 * lib.sin (rnd (rnd (2 * l) - rnd (2 * d)))))
  let s8 := rnd (s7 - rnd (dmsToRadians 0 0 206 * lib.sin (rnd (rnd (l + lp) - rnd (2 * d)))))
  let s9 := rnd (s8 + rnd (dmsToRadians 0 0 192 * lib.sin (rnd (l + rnd (2 * d)))))
  let s10 := rnd (s9 - rnd (dmsToRadians 0 0 165 * lib.sin (rnd (lp - rnd (2 * d)))))
  let s11 := rnd (s10 + rnd (dmsToRadians 0 0 148 * lib.sin (rnd (l - lp))))
  let s12 := rnd (s11 - rnd (dmsToRadians 0 0 125 * lib.sin d))
  let s13 := rnd (s12 - rnd (dmsToRadians 0 0 110 * lib.sin (rnd (l + lp))))
  rnd (s13 - rnd (dmsToRadians 0 0 55 * lib.sin (rnd (rnd (2 * f) - rnd (2 * d)))))

/-- `beta` of `Moon.get_position` (celestial.py 300-323) -/
def moonLatitude (lib : Libm) (lam l0 l lp f d : ℝ) : ℝ :=
  let inner := rnd (dmsToRadians 0 0 412 * lib.sin (rnd (rnd (2 * f) + rnd (dmsToRadians 0 0 541 * lib.sin lp))))
  let s1 := rnd (dmsToRadians 0 0 18520 * lib.sin (rnd (rnd (rnd (f + lam) - l0) + inner)))
  let s2 := rnd (s1 - rnd (dmsToRadians 0 0 526 * lib.sin (rnd (f - rnd (2 * d)))))
  let s3 := rnd (s2 + rnd (dmsToRadians 0 0 44 * lib.sin (rnd (rnd (l + f) - rnd (2 * d)))))
  let s4 := rnd (s3 - rnd (dmsToRadians 0 0 31 * lib.sin (rnd (rnd (-l + f) - rnd (2 * d)))))
  let s5 := rnd (s4 - rnd (dmsToRadians 0 0 25 * lib.sin (rnd (rnd (-2 * l) + f))))
  let s6 := rnd (s5 - rnd (dmsToRadians 0 0 23 * lib.sin (rnd (rnd (lp + f) - rnd (2 * d)))))
  let s7 := rnd (s6 + rnd (dmsToRadians 0 0 21 * lib.sin (rnd (-l + f))))
  rnd (s7 + rnd (dmsToRadians 0 0 11 * lib.sin (rnd (rnd (-lp + f) - rnd (2 * d)))))

/-- `r` of `Moon.get_position` (celestial.py 325-336) -/
def moonDistance (lib : Libm) (l lp d : ℝ) : ℝ :=
  let s1 := rnd (385000 - rnd (20905 * lib.cos l))
  let s2 := rnd (s1 - rnd (3699 * lib.cos (rnd (rnd (2 * d) - l))))
  let s3 := rnd (s2 - rnd (2956 * lib.cos (rnd (2 * d))))
  let s4 := rnd (s3 - rnd (570 * lib.cos (rnd (2 * l))))
  let s5 := rnd (s4 + rnd (246 * lib.cos (rnd (rnd (2 * l) - rnd (2 * d)))))
  let s6 := rnd (s5 - rnd (205 * lib.cos (rnd (lp - rnd (2 * d)))))
  let s7 := rnd (s6 - rnd (171 * lib.cos (rnd (l + rnd (2 * d)))))
  rnd (s7 - rnd (152 * lib.cos (rnd (rnd (l + lp) - rnd (2 * d)))))

/-- `Moon.get_position` (celestial.py 250-346) -/
def moonPosition (lib : Libm) (e : ℝ) : Py Vec3 :=
  let t := julianCenturies e
  let l0 := radians (rnd (rnd (rnd 218.31617 + rnd (rnd 481267.88088 * t)) - rnd (rnd 1.3972 * t)))
  let l := radians (rnd (rnd 134.96292 + rnd (rnd 477198.86753 * t)))
  let lp := radians (rnd (rnd 357.52543 + rnd (rnd 35999.04944 * t)))
  let f := radians (rnd (rnd 93.27283 + rnd (rnd 483202.01873 * t)))
  let d := radians (rnd (rnd 297.85027 + rnd (rnd 445267.11135 * t)))
  let lam := moonLongitude lib l0 l lp f d
  let beta := moonLatitude lib lam l0 l lp f d
  let r := moonDistance lib l lp d
  let x := rnd (rnd (r * lib.cos lam) * lib.cos beta)
  let y := rnd (rnd (r * lib.sin lam) * lib.cos beta)
  let z := rnd (r * lib.sin beta)
  rotationAboutAxis lib ⟨x, y, z⟩ ⟨1, 0, 0⟩ OBLIQUITY

end

end Openspace.F64
