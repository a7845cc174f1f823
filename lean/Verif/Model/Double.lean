import Mathlib.Algebra.Order.Archimedean.Real.Basic
import Mathlib.Data.Int.Log
import Mathlib.Algebra.Order.Floor.Ring
import Mathlib.Logic.Function.Basic

/-!
# Clocks in double precision

The rest of the model computes with real numbers.  This file models the part of the library whose outcome depends on
rounding: the arithmetic of epochs when a propagator is stepped to an epoch, and the test of `update_attitude` whether
two clocks are equal.  Numbers are real numbers, and every operation of the code is followed by rounding to the
nearest double (ties to even), as IEEE 754 prescribes for `+ - * /`.

Simplifications: the exponent range is not bounded (there is no overflow, underflow or NaN; the values met here are
between 1e-20 and 1e10 or zero); the integer constants and the number of steps are exact as doubles.  Only the epoch of
each spacecraft is kept: the forces do not affect it, and a call that raises is not described.
-/

namespace Openspace.F64

noncomputable section

/-- the nearest integer, and the even one of two equally near ones -/
def roundEven (y : ℝ) : ℤ :=
  if Int.fract y < 1 / 2 then ⌊y⌋
  else if 1 / 2 < Int.fract y then ⌊y⌋ + 1
  else if Even ⌊y⌋ then ⌊y⌋ else ⌊y⌋ + 1

/-- the unit in the last place of a number of the size of `x`: the significand of a double has 53 bits -/
def ulp (x : ℝ) : ℝ := (2 : ℝ) ^ (Int.log 2 |x| - 52)

/-- rounding to the nearest double (IEEE 754 binary64, round half to even) -/
def rnd (x : ℝ) : ℝ := if x = 0 then 0 else roundEven (x / ulp x) * ulp x

/-- `x` is a double -/
def IsDouble (x : ℝ) : Prop := rnd x = x

/-- `Epoch.plus_days` (time.py 85-93) on the value of the epoch -/
def plusDays (e t : ℝ) : ℝ := rnd (e + t)

/-- the epoch after `RK4.step` (inertial.py 39-74; lines 41, 43, 50-52, 61 and 70-71 concern it) -/
def step (h e : ℝ) : ℝ :=
  let dsecs := rnd (h / 2)
  let ddays := rnd (dsecs / 86400)
  let epoch_1 := plusDays e ddays
  plusDays epoch_1 ddays

/-- `dt` of `RK4.step_to_epoch` (inertial.py 108) -/
def span (t e : ℝ) : ℝ := rnd (rnd (t - e) * 86400)

/-- `num_steps` of `RK4.step_to_epoch` (inertial.py 111) -/
def numSteps (t e : ℝ) : ℕ := ⌈|rnd (span t e / 300)|⌉₊

/-- the epoch after `RK4.step_to_epoch` (inertial.py 100-127) -/
def stepToEpoch (t e : ℝ) : ℝ := (step (rnd (span t e / numSteps t e)))^[numSteps t e] e

variable {ι : Type} [DecidableEq ι]

/-- The epochs of all spacecraft after `Spacecraft.update_attitude` (artificial.py 235-276, lines 259-263).
`tracks i` is the tracked target of spacecraft `i` if its mode is `target` and `none` in the other modes.  The first
argument is the remaining recursion depth; the result is `none` if it is exhausted (`RecursionError`). -/
def updateAttitude (tracks : ι → Option ι) : ℕ → ι → (ι → ℝ) → Option (ι → ℝ)
  | 0, _, _ => none
  | depth + 1, self, w =>
    match tracks self with
    | none => some w
    | some t =>
      if w t ≠ w self then
        updateAttitude tracks depth t (Function.update w t (stepToEpoch (w self) (w t)))
      else some w

/-- the epochs of all spacecraft after `Spacecraft.step_to_epoch` (artificial.py 419-426) -/
def spacecraftStepToEpoch (tracks : ι → Option ι) (depth : ℕ) (self : ι) (epoch : ℝ) (w : ι → ℝ) :
    Option (ι → ℝ) :=
  updateAttitude tracks depth self (Function.update w self (stepToEpoch epoch (w self)))

end

end Openspace.F64
