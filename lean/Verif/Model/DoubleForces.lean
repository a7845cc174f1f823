import Verif.Model.DoubleSunMoon

/-!
# The accelerations of the force model in double precision

`acceleration_from_earth`, `acceleration_from_moon`, `acceleration_from_sun` and `acceleration_from_srp` of `GCRF` with
every operation rounded to the nearest double, under the conventions of `Model/DoubleEarth`.  A state is given by its
position `pos` and the value `e` of its epoch.
-/

namespace Openspace.F64

noncomputable section

/-- `Vector3D.plus` (linalg.py 195-203) -/
def plus (a b : Vec3) : Vec3 := ⟨rnd (a.x + b.x), rnd (a.y + b.y), rnd (a.z + b.z)⟩

/-- `Vector3D.minus` (linalg.py 205-213) -/
def minus (a b : Vec3) : Vec3 := ⟨rnd (a.x - b.x), rnd (a.y - b.y), rnd (a.z - b.z)⟩

/-- the third power `m * m * m` of a magnitude (states.py 205, 217, 218, 231, 232) -/
def cube (m : ℝ) : ℝ := rnd (rnd (m * m) * m)

/-- `GCRF.acceleration_from_earth` (states.py 197-205) -/
def accelerationFromEarth (pos : Vec3) : Py Vec3 := do
  let k ← div (-mu) (cube (magnitude pos))
  pure (scaled pos k)

/-- the common body of `acceleration_from_moon` and `acceleration_from_sun` (states.py 214-219 and 228-233) -/
def thirdBody (s pos : Vec3) (mu : ℝ) : Py Vec3 := do
  let r := minus s pos
  let k1 ← div 1 (cube (magnitude r))
  let k2 ← div 1 (cube (magnitude s))
  pure (scaled (minus (scaled r k1) (scaled s k2)) mu)

/-- `GCRF.acceleration_from_moon` (states.py 207-219), with `Moon.MU` of celestial.py 245 -/
def accelerationFromMoon (lib : Libm) (pos : Vec3) (e : ℝ) : Py Vec3 := do
  let m ← moonPosition lib e
  thirdBody m pos (rnd Moon.MU)

/-- `GCRF.acceleration_from_sun` (states.py 221-233), with `Sun.MU` of celestial.py 201 -/
def accelerationFromSun (lib : Libm) (pos : Vec3) (e : ℝ) : Py Vec3 :=
  thirdBody (sunPosition lib e) pos (rnd Sun.MU)

/-- `GCRF.acceleration_from_srp` (states.py 235-243), with `Sun.P` of celestial.py 204 and `sun_vector` of
states.py 268-274; `k` is the attribute `srp_scalar` -/
def accelerationFromSrp (lib : Libm) (pos : Vec3) (e k : ℝ) : Py Vec3 := do
  let sun_vec ← normalized (minus (sunPosition lib e) pos)
  let s_mag := magnitude sun_vec
  let q ← div (rnd (-rnd Sun.P * k)) (rnd (rnd (s_mag * s_mag) * 1000))
  pure (scaled sun_vec q)

end

end Openspace.F64
