import Verif.Model.Double
import Verif.Model.Functions

/-!
# The solver of Kepler's equation in double precision

`Model/Functions` has the solver with real arithmetic.  Here every operation is rounded to the nearest double; sine and
cosine are those of the platform's C library, given as arbitrary functions.
-/

namespace Openspace.F64

noncomputable section

/-- `sin`, `cos`, `atan2` and `asin` of the `math` module (functions.py 1, positions.py 1) and `**` with a fractional
exponent (positions.py 239) -/
structure Libm where
  sin : ℝ → ℝ
  cos : ℝ → ℝ
  atan2 : ℝ → ℝ → ℝ
  asin : ℝ → ℝ
  pow : ℝ → ℝ → ℝ

/-- `math.pi` -/
def pi : ℝ := rnd Real.pi

/-- `EccentricAnomaly.TOLERANCE` (functions.py 696) -/
def tolerance : ℝ := rnd 1e-12

/-- the starting value of `EccentricAnomaly.from_ma_e` (functions.py 721-728) -/
def keplerStart (ma e : ℝ) : ℝ :=
  if (ma > -pi ∧ ma < 0) ∨ ma > pi then rnd (ma - e) else rnd (ma + e)

/-- the body of the loop of `EccentricAnomaly.from_ma_e` (functions.py 731) -/
def keplerStep (lib : Libm) (ma e ea0 : ℝ) : Py ℝ := do
  let num := rnd (rnd (ma - ea0) + rnd (e * lib.sin ea0))
  let den := rnd (1 - rnd (e * lib.cos ea0))
  let q ← pyDiv num den
  pure (rnd (ea0 + rnd q))

/-- the `while not converged` loop of `EccentricAnomaly.from_ma_e` (functions.py 730-735) -/
def keplerLoop (lib : Libm) (ma e : ℝ) : Nat → ℝ → Py ℝ
  | 0, _ => .error .outOfFuel
  | fuel + 1, ea0 => do
    let ean ← keplerStep lib ma e ea0
    if |rnd (ean - ea0)| < tolerance then pure ean else keplerLoop lib ma e fuel ean

/-- `EccentricAnomaly.from_ma_e` (functions.py 698-739) -/
def eaFromMaE (lib : Libm) (fuel : Nat) (ma e : ℝ) : Py ℝ := do
  let ean ← keplerLoop lib ma e fuel (keplerStart ma e)
  pure (if ean < 0 then rnd (ean + rnd (2 * pi)) else ean)

end

end Openspace.F64
