import Verif.Model.DoubleForces
import Verif.Model.DoubleSunMoon
import Verif.Model.Hardware

/-!
# Noise and simulated observations in double precision

The noise of vectors and the observations of one spacecraft by another with every operation rounded to the nearest double,
under the conventions of `Model/DoubleEarth`.  The random draws are arguments, as in `Model/Linalg`.
-/

namespace Openspace.F64

noncomputable section

/-- `random.gauss(mu, sigma)`: CPython returns `mu + z * sigma` for a standard normal deviate `z` -/
def gauss (mu sigma z : ℝ) : ℝ := rnd (mu + rnd (z * sigma))

/-- `random.uniform(a, b)`: CPython returns `a + (b - a) * random()` -/
def uniform (a b w : ℝ) : ℝ := rnd (a + rnd (rnd (b - a) * w))

/-- `Vector3D.with_magnitude_noise` (linalg.py 153-161) -/
def withMagnitudeNoise (v : Vec3) (rangeErr z : ℝ) : Py Vec3 := do
  let n ← normalized v
  pure (scaled n (gauss (magnitude v) rangeErr z))

/-- `Vector3D.with_angular_noise` (linalg.py 163-173) -/
def withAngularNoise (lib : Libm) (v : Vec3) (angErr z w : ℝ) : Py Vec3 := do
  let a ← rotationAboutAxis lib v (cross v ⟨0, 0, 1⟩) (gauss 0 angErr z)
  rotationAboutAxis lib a v (uniform 0 (rnd (2 * pi)) w)

/-- `Vector3D.with_noise` (linalg.py 141-151) -/
def withNoise (lib : Libm) (v : Vec3) (rangeErr angErr z1 z2 w : ℝ) : Py Vec3 := do
  let a ← withMagnitudeNoise v rangeErr z1
  withAngularNoise lib a angErr z2 w

/-- `Camera.range_error` (payloads.py 69-79), with `Camera.resolution` (59-67); `tan` is `math.tan` -/
def rangeError (tan : ℝ → ℝ) (c : Camera) (r d : ℝ) : Py ℝ := do
  let q ← div (rnd (rnd (tan c.fov * r) * c.resolution_factor)) d
  pure (rnd (q * r))

/-- `observe_wfov` and `observe_nfov` (artificial.py 189-197 and 207-215) for a spacecraft at `pos` and a target at `target`
with the attribute `body_radius = radius`; `accuracy` is `pointing_accuracy`.  The result is the observed vector and the
range error, the second and third argument of `SpaceObservation`. -/
def observe (lib : Libm) (tan : ℝ → ℝ) (c : Camera) (pos target : Vec3) (radius accuracy z1 z2 w : ℝ) : Py (Vec3 × ℝ) := do
  let truth_vector := minus target pos
  let range_error ← rangeError tan c (magnitude truth_vector) (rnd (radius * 2))
  let noisy ← withNoise lib truth_vector range_error accuracy z1 z2 w
  pure (noisy, range_error)

end

end Openspace.F64
