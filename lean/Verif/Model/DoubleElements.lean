import Verif.Model.DoubleKepler
import Verif.Model.Elements

/-!
# Classical elements of a state in double precision

`Model/Elements` has `ClassicalElements.from_ijk` with real arithmetic.  Here every operation is rounded to the nearest
double, also the square root; sine, cosine and arctangent are those of the platform's C library, given as arbitrary
functions.  As in `Model/Double` the exponent range is not bounded and zeros have no sign.
-/

namespace Openspace.F64

noncomputable section

/-- `/` -/
def div (a b : ℝ) : Py ℝ := do
  let q ← pyDiv a b
  pure (rnd q)

/-- `math.sqrt` -/
def sqrt (x : ℝ) : Py ℝ := do
  let y ← pySqrt x
  pure (rnd y)

/-- `Earth.MU` (celestial.py 58) -/
def mu : ℝ := rnd Earth.MU

/-- the sum of squares or products of `dot` and `magnitude` (linalg.py 223, 245) -/
def dot (a b : Vec3) : ℝ := rnd (rnd (rnd (a.x * b.x) + rnd (a.y * b.y)) + rnd (a.z * b.z))

/-- `Vector3D.cross` (linalg.py 225-237) -/
def cross (a b : Vec3) : Vec3 :=
  ⟨rnd (rnd (a.y * b.z) - rnd (a.z * b.y)), rnd (rnd (a.z * b.x) - rnd (a.x * b.z)),
   rnd (rnd (a.x * b.y) - rnd (a.y * b.x))⟩

/-- `Vector3D.magnitude` (linalg.py 239-245); the radicand is a rounded sum of squares, hence not negative -/
def magnitude (a : Vec3) : ℝ := rnd (sqrtNN (dot a a))

/-- `Vector3D.scaled` (linalg.py 247-255) -/
def scaled (a : Vec3) (k : ℝ) : Vec3 := ⟨rnd (a.x * k), rnd (a.y * k), rnd (a.z * k)⟩

/-- `Vector3D.normalized` (linalg.py 257-263) -/
def normalized (a : Vec3) : Py Vec3 := do
  let k ← div 1 (magnitude a)
  pure (scaled a k)

/-- `if x < 0: x += 2 * pi` (functions.py 440-441, 761-762, 790-791, 819-820, 848-849, 877-878) -/
def wrapNeg (x : ℝ) : ℝ := if x < 0 then rnd (x + rnd (2 * pi)) else x

/-- `RightAscensionNode.from_w` (functions.py 423-442) -/
def raanFromW (lib : Libm) (w : Vec3) : ℝ := wrapNeg (lib.atan2 w.x (-w.y))

/-- `Inclination.from_w` (functions.py 453-480) -/
def incFromW (lib : Libm) (w : Vec3) : ℝ :=
  lib.atan2 (rnd (sqrtNN (rnd (rnd (w.x * w.x) + rnd (w.y * w.y))))) w.z

/-- `SemiMajorAxis.from_mu_r_v` (functions.py 248-264) -/
def aFromMuRV (mu r v : ℝ) : Py ℝ := do
  let t1 ← div 2 r
  let t2 ← div (rnd (v * v)) mu
  div 1 (rnd (t1 - t2))

/-- `SemiParameter.from_mu_h` (functions.py 334-348) -/
def pFromMuH (mu h : ℝ) : Py ℝ := div (rnd (h * h)) mu

/-- `Eccentricity.from_a_p` (functions.py 156-176) -/
def eFromAP (a p : ℝ) : Py ℝ := do
  let q ← div p a
  sqrt (rnd (1 - q))

/-- `MeanMotion.from_a_mu` (functions.py 656-670) -/
def nFromAMu (a mu : ℝ) : Py ℝ := do
  let q ← div mu (rnd (rnd (a * a) * a))
  sqrt q

/-- `EccentricAnomaly.from_rdv_r_a_n` (functions.py 742-763) -/
def eaFromRdvRAN (lib : Libm) (rdv r a n : ℝ) : Py ℝ := do
  let y ← div rdv (rnd (rnd (a * a) * n))
  let q ← div r a
  pure (wrapNeg (lib.atan2 y (rnd (1 - q))))

/-- `MeanAnomaly.from_ea_e` (functions.py 861-879) -/
def maFromEaE (lib : Libm) (ea e : ℝ) : ℝ := wrapNeg (rnd (ea - rnd (e * lib.sin ea)))

/-- `ArgumentOfLatitude.from_r_w` (functions.py 832-850) -/
def uFromRW (lib : Libm) (r w : Vec3) : ℝ :=
  wrapNeg (lib.atan2 r.z (rnd (rnd (-r.x * w.y) + rnd (r.y * w.x))))

/-- `TrueAnomaly.from_e_ea` (functions.py 775-792) -/
def nuFromEEa (lib : Libm) (e ea : ℝ) : Py ℝ := do
  let s ← sqrt (rnd (1 - rnd (e * e)))
  pure (wrapNeg (lib.atan2 (rnd (s * lib.sin ea)) (rnd (lib.cos ea - e))))

/-- `ArgumentOfPerigee.from_u_nu` (functions.py 804-821) -/
def wFromUNu (u nu : ℝ) : ℝ := wrapNeg (rnd (u - nu))

/-- `ClassicalElements.from_ijk` (elements.py 50-69) -/
def fromIjk (lib : Libm) (state : State) : Py ClassicalElements := do
  let r := magnitude state.position
  let v := magnitude state.velocity
  let rdv := dot state.position state.velocity
  let h := cross state.position state.velocity
  let w ← normalized h
  let i := incFromW lib w
  let raan := raanFromW lib w
  let a ← aFromMuRV mu r v
  let p ← pFromMuH mu (magnitude h)
  let e ← eFromAP a p
  let n ← nFromAMu a mu
  let ea ← eaFromRdvRAN lib rdv r a n
  let ma := maFromEaE lib ea e
  let u := uFromRW lib state.position w
  let nu ← nuFromEEa lib e ea
  let aop := wFromUNu u nu
  pure ⟨state.epoch, a, e, i, raan, aop, ma⟩

end

end Openspace.F64
