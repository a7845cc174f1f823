import Verif.Model.DoubleElements
import Verif.Model.DoubleTime
import Verif.Model.Maneuvers

/-!
# The formulas of `functions.py` and `maneuvers.py` in double precision

Those of `Model/DoubleElements`, `Model/DoubleTime` and `Model/DoubleEarth` are not repeated.
-/

namespace Openspace

noncomputable section

namespace F64

/-- `Eccentricity.from_a_c` (functions.py 109-130) -/
def eFromAC (a c : ℝ) : Py ℝ := div c a

/-- `Eccentricity.from_a_b` (functions.py 132-153) -/
def eFromAB (a b : ℝ) : Py ℝ := do
  let s ← sqrt (rnd (rnd (a * a) - rnd (b * b)))
  div s a

/-- `Flattening.from_a_b` (functions.py 186-201) -/
def fFromAB (a b : ℝ) : Py ℝ := div (rnd (a - b)) a

/-- `x ** (1 / 3)` -/
def cbrt (lib : Libm) (x : ℝ) : Py ℝ := if x < 0 then .error .complexValue else .ok (lib.pow x (rnd (1 / 3)))

/-- `SemiMajorAxis.from_mu_n` (functions.py 212-227) -/
def aFromMuN (lib : Libm) (mu n : ℝ) : Py ℝ := do
  let q ← div mu (rnd (n * n))
  cbrt lib q

/-- `SemiMajorAxis.from_mu_tau` (functions.py 229-245) -/
def aFromMuTau (lib : Libm) (mu tau : ℝ) : Py ℝ := do
  let base ← div tau (rnd (2 * pi))
  cbrt lib (rnd (rnd (mu * base) * base))

/-- `SemiMinorAxis.from_a_e` (functions.py 274-289) -/
def bFromAE (a e : ℝ) : Py ℝ := do
  let s ← sqrt (rnd (1 - rnd (e * e)))
  pure (rnd (a * s))

/-- `SemiParameter.from_a_b` (functions.py 299-314) -/
def pFromAB (a b : ℝ) : Py ℝ := div (rnd (b * b)) a

/-- `SemiParameter.from_a_e` (functions.py 316-331) -/
def pFromAE (a e : ℝ) : ℝ := rnd (a * rnd (1 - rnd (e * e)))

/-- `ArealVelocity.from_r_v_phi` (functions.py 360-377) -/
def hFromRVPhi (lib : Libm) (r v phi : ℝ) : ℝ := rnd (rnd (r * v) * lib.cos phi)

/-- `ArealVelocity.from_mu_p` (functions.py 379-394) -/
def hFromMuP (mu p : ℝ) : Py ℝ := sqrt (rnd (mu * p))

/-- `Radius.from_p_e_nu` (functions.py 491-508) -/
def rFromPENu (lib : Libm) (p e nu : ℝ) : Py ℝ := div p (rnd (1 + rnd (e * lib.cos nu)))

/-- `SpecificMechanicalEnergy.from_mu_r_v` (functions.py 519-536) -/
def xiFromMuRV (mu r v : ℝ) : Py ℝ := do
  let q ← div mu r
  pure (rnd (rnd (rnd (v * v) * 0.5) - q))

/-- `SpecificMechanicalEnergy.from_mu_a` (functions.py 538-553) -/
def xiFromMuA (mu a : ℝ) : Py ℝ := div (rnd (-0.5 * mu)) a

/-- `VisVivaVelocity.from_a_mu_r` (functions.py 564-581) -/
def vFromAMuR (a mu r : ℝ) : Py ℝ := do
  let t1 ← div 2 r
  let t2 ← div 1 a
  sqrt (rnd (mu * rnd (t1 - t2)))

/-- `VisVivaVelocity.from_mu_r_xi` (functions.py 583-599) -/
def vFromMuRXi (mu r xi : ℝ) : Py ℝ := do
  let q ← div mu r
  sqrt (rnd (2 * rnd (q + xi)))

/-- `VisVivaVelocity.from_mu_r_e_nu` (functions.py 601-620) -/
def vFromMuRENu (lib : Libm) (mu r e nu : ℝ) : Py ℝ := do
  let q ← div mu r
  let t ← div (rnd (1 - rnd (e * e))) (rnd (1 + rnd (e * lib.cos nu)))
  sqrt (rnd (q * rnd (2 - t)))

/-- `Period.from_a_mu` (functions.py 630-645) -/
def tauFromAMu (a mu : ℝ) : Py ℝ := do
  let q ← div (rnd (rnd (a * a) * a)) mu
  let s ← sqrt q
  pure (rnd (rnd (2 * pi) * s))

/-- `MeanMotion.from_tau` (functions.py 672-685) -/
def nFromTau (tau : ℝ) : Py ℝ := div (rnd (2 * pi)) tau

/-- `VisViva.circular_velocity` (maneuvers.py 13-22) -/
def circularVelocity (r : ℝ) : Py ℝ := do
  let q ← div mu r
  sqrt q

/-- `VisViva.eccentric_velocity` (maneuvers.py 24-35) -/
def eccentricVelocity (r a : ℝ) : Py ℝ := vFromAMuR a mu r

/-- `Hohmann.__init__` (maneuvers.py 39-64) -/
def hohmann (r1 r2 : ℝ) : Py Hohmann := do
  let sma ← div (rnd (r1 + r2)) 2
  let initial_velocity ← circularVelocity r1
  let transfer_velocity_1 ← eccentricVelocity r1 sma
  let transfer_velocity_2 ← eccentricVelocity r2 sma
  let final_velocity ← circularVelocity r2
  pure ⟨initial_velocity, transfer_velocity_1, transfer_velocity_2, final_velocity,
    rnd (transfer_velocity_1 - initial_velocity), rnd (final_velocity - transfer_velocity_2)⟩

end F64

end

end Openspace
