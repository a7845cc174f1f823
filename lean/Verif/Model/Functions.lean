import Verif.Model.Linalg

/-!
# Model of `/repo/src/openspace/math/constants.py` and `/repo/src/openspace/math/functions.py`
-/

namespace Openspace

noncomputable section

/-- `SECONDS_IN_DAY` (constants.py 2) -/
def SECONDS_IN_DAY : ℝ := 86400

/-- `HOURS_IN_DAY` (constants.py 5) -/
def HOURS_IN_DAY : ℝ := 24

/-- `MINUTES_IN_DAY` (constants.py 8) -/
def MINUTES_IN_DAY : ℝ := 1440

/-- `MINUTES_IN_HOUR` (constants.py 11) -/
def MINUTES_IN_HOUR : ℝ := 60

/-- `SECONDS_IN_HOUR` (constants.py 14) -/
def SECONDS_IN_HOUR : ℝ := 3600

/-- `SEA_LEVEL_G` (constants.py 23) -/
def SEA_LEVEL_G : ℝ := 0.00981

/-- `BASE_IN_KILO` (constants.py 26) -/
def BASE_IN_KILO : ℝ := 1000

/-- `SECONDS_IN_SIDEREAL_DAY` (constants.py 29) -/
def SECONDS_IN_SIDEREAL_DAY : ℝ := 86164.090518

/-- `Conversions.hms_to_decimal_day` (functions.py 15-28) -/
def hmsToDecimalDay (hr m s : ℝ) : ℝ := hr / HOURS_IN_DAY + m / MINUTES_IN_DAY + s / SECONDS_IN_DAY

/-- `Conversions.dms_to_radians` (functions.py 30-43) -/
def dmsToRadians (d m s : ℝ) : ℝ := pyRadians (d + m / MINUTES_IN_HOUR + s / SECONDS_IN_HOUR)

/-- `sign` (functions.py 46-59) -/
def pySign (num : ℝ) : ℝ := if num > 0 then 1 else if num < 0 then -1 else 0

/-- `LegendrePolynomial(phi).p` (functions.py 62-99) -/
def legendreP (phi : ℝ) : List (List ℝ) :=
  let cos_phi := pyCos phi
  let sin_phi := pySin phi
  let cos_phi_squared := cos_phi * cos_phi
  let sin_phi_squared := sin_phi * sin_phi
  [ [1, 0],
    [sin_phi, cos_phi, 0],
    [ (3 * sin_phi_squared - 1) * 0.5,
      3 * sin_phi * cos_phi,
      3 * cos_phi_squared,
      0 ],
    [ sin_phi * (5 * sin_phi_squared - 3) * 0.5,
      (15 * sin_phi_squared - 3) * cos_phi * 0.5,
      15 * sin_phi * cos_phi_squared,
      15 * cos_phi_squared * cos_phi,
      0 ],
    [ 0.125 * (35 * sin_phi_squared * sin_phi_squared - 30 * sin_phi_squared + 3),
      2.5 * (7 * sin_phi_squared * sin_phi - 3 * sin_phi) * cos_phi,
      (7 * sin_phi_squared - 1) * cos_phi_squared * 7.5,
      105 * cos_phi * cos_phi_squared * sin_phi,
      105 * cos_phi_squared * cos_phi_squared,
      0 ] ]

/-! ## `EquationsOfMotion` -/

/-- `Eccentricity.from_a_c` (functions.py 109-130) -/
def eFromAC (a c : ℝ) : Py ℝ := pyDiv c a

/-- `Eccentricity.from_a_b` (functions.py 132-153) -/
def eFromAB (a b : ℝ) : Py ℝ := do
  let s ← pySqrt (a * a - b * b)
  pyDiv s a

/-- `Eccentricity.from_a_p` (functions.py 155-176) -/
def eFromAP (a p : ℝ) : Py ℝ := do
  let q ← pyDiv p a
  pySqrt (1 - q)

/-- `Flattening.from_a_b` (functions.py 186-201) -/
def fFromAB (a b : ℝ) : Py ℝ := pyDiv (a - b) a

/-- `SemiMajorAxis.from_mu_n` (functions.py 212-227) -/
def aFromMuN (mu n : ℝ) : Py ℝ := do
  let q ← pyDiv mu (n * n)
  pyPow q (1 / 3)

/-- `SemiMajorAxis.from_mu_tau` (functions.py 229-245) -/
def aFromMuTau (mu tau : ℝ) : Py ℝ :=
  let base := tau / (2 * pyPi)
  pyPow (mu * base * base) (1 / 3)

/-- `SemiMajorAxis.from_mu_r_v` (functions.py 247-264) -/
def aFromMuRV (mu r v : ℝ) : Py ℝ := do
  let t1 ← pyDiv 2 r
  let t2 ← pyDiv (v * v) mu
  pyDiv 1 (t1 - t2)

/-- `SemiMinorAxis.from_a_e` (functions.py 274-289) -/
def bFromAE (a e : ℝ) : Py ℝ := do
  let s ← pySqrt (1 - e * e)
  pure (a * s)

/-- `SemiParameter.from_a_b` (functions.py 299-314) -/
def pFromAB (a b : ℝ) : Py ℝ := pyDiv (b * b) a

/-- `SemiParameter.from_a_e` (functions.py 316-331) -/
def pFromAE (a e : ℝ) : ℝ := a * (1 - e * e)

/-- `SemiParameter.from_mu_h` (functions.py 333-348) -/
def pFromMuH (mu h : ℝ) : Py ℝ := pyDiv (h * h) mu

/-- `ArealVelocity.from_r_v_phi` (functions.py 360-377) -/
def hFromRVPhi (r v phi : ℝ) : ℝ := r * v * pyCos phi

/-- `ArealVelocity.from_mu_p` (functions.py 379-394) -/
def hFromMuP (mu p : ℝ) : Py ℝ := pySqrt (mu * p)

/-- `ArealVelocity.from_r_v` (functions.py 396-411) -/
def hFromRV (r v : Vec3) : Vec3 := r.cross v

/-- the idiom `if x < 0: x += 2 * pi` which occurs in many functions -/
def wrapNeg (x : ℝ) : ℝ := if x < 0 then x + 2 * pyPi else x

/-- `RightAscensionNode.from_w` (functions.py 422-442) -/
def raanFromW (w : Vec3) : ℝ := wrapNeg (pyAtan2 w.x (-w.y))

/-- `Inclination.from_w` (functions.py 453-480) -/
def incFromW (w : Vec3) : ℝ := pyAtan2 (sqrtNN (w.x * w.x + w.y * w.y)) w.z

/-- `Radius.from_p_e_nu` (functions.py 491-508) -/
def rFromPENu (p e nu : ℝ) : Py ℝ := pyDiv p (1 + e * pyCos nu)

/-- `SpecificMechanicalEnergy.from_mu_r_v` (functions.py 519-536) -/
def xiFromMuRV (mu r v : ℝ) : Py ℝ := do
  let q ← pyDiv mu r
  pure (v * v * 0.5 - q)

/-- `SpecificMechanicalEnergy.from_mu_a` (functions.py 538-553) -/
def xiFromMuA (mu a : ℝ) : Py ℝ := pyDiv (-0.5 * mu) a

/-- `VisVivaVelocity.from_a_mu_r` (functions.py 564-581) -/
def vFromAMuR (a mu r : ℝ) : Py ℝ := do
  let t1 ← pyDiv 2 r
  let t2 ← pyDiv 1 a
  pySqrt (mu * (t1 - t2))

/-- `VisVivaVelocity.from_mu_r_xi` (functions.py 583-599) -/
def vFromMuRXi (mu r xi : ℝ) : Py ℝ := do
  let q ← pyDiv mu r
  pySqrt (2 * (q + xi))

/-- `VisVivaVelocity.from_mu_r_e_nu` (functions.py 601-620) -/
def vFromMuRENu (mu r e nu : ℝ) : Py ℝ := do
  let q ← pyDiv mu r
  let t ← pyDiv (1 - e * e) (1 + e * pyCos nu)
  pySqrt (q * (2 - t))

/-- `Period.from_a_mu` (functions.py 630-645) -/
def tauFromAMu (a mu : ℝ) : Py ℝ := do
  let q ← pyDiv (a * a * a) mu
  let s ← pySqrt q
  pure (2 * pyPi * s)

/-- `MeanMotion.from_a_mu` (functions.py 655-670) -/
def nFromAMu (a mu : ℝ) : Py ℝ := do
  let q ← pyDiv mu (a * a * a)
  pySqrt q

/-- `MeanMotion.from_tau` (functions.py 672-685) -/
def nFromTau (tau : ℝ) : Py ℝ := pyDiv (2 * pyPi) tau

/-- `EccentricAnomaly.TOLERANCE` (functions.py 696) -/
def EA_TOLERANCE : ℝ := 1e-12

/-- the body of the loop of `EccentricAnomaly.from_ma_e` (functions.py 731) -/
def keplerStep (ma e ea0 : ℝ) : Py ℝ := do
  let q ← pyDiv (ma - ea0 + e * pySin ea0) (1 - e * pyCos ea0)
  pure (ea0 + q)

/-- the `while not converged` loop of `EccentricAnomaly.from_ma_e` (functions.py 730-735) -/
def keplerLoop (ma e : ℝ) : Nat → ℝ → Py ℝ
  | 0, _ => .error .outOfFuel
  | fuel + 1, ea0 => do
    let ean ← keplerStep ma e ea0
    if pyAbs (ean - ea0) < EA_TOLERANCE then pure ean else keplerLoop ma e fuel ean

/-- the starting value of `EccentricAnomaly.from_ma_e` (functions.py 721-728) -/
def keplerStart (ma e : ℝ) : ℝ :=
  if (ma > -pyPi ∧ ma < 0) ∨ ma > pyPi then ma - e else ma + e

/-- `EccentricAnomaly.from_ma_e` (functions.py 698-739) -/
def eaFromMaE (fuel : Nat) (ma e : ℝ) : Py ℝ := do
  let ean ← keplerLoop ma e fuel (keplerStart ma e)
  pure (wrapNeg ean)

/-- `EccentricAnomaly.from_rdv_r_a_n` (functions.py 741-763) -/
def eaFromRdvRAN (rdv r a n : ℝ) : Py ℝ := do
  let y ← pyDiv rdv (a * a * n)
  let q ← pyDiv r a
  pure (wrapNeg (pyAtan2 y (1 - q)))

/-- `TrueAnomaly.from_e_ea` (functions.py 774-792) -/
def nuFromEEa (e ea : ℝ) : Py ℝ := do
  let s ← pySqrt (1 - e * e)
  pure (wrapNeg (pyAtan2 (s * pySin ea) (pyCos ea - e)))

/-- `ArgumentOfPerigee.from_u_nu` (functions.py 803-821) -/
def wFromUNu (u nu : ℝ) : ℝ := wrapNeg (u - nu)

/-- `ArgumentOfLatitude.from_r_w` (functions.py 832-850) -/
def uFromRW (r w : Vec3) : ℝ := wrapNeg (pyAtan2 r.z (-r.x * w.y + r.y * w.x))

/-- `MeanAnomaly.from_ea_e` (functions.py 861-879) -/
def maFromEaE (ea e : ℝ) : ℝ := wrapNeg (ea - e * pySin ea)

end

end Openspace
