import Verif.Model.Double

/-!
# The clocks of a simulation loop in double precision

The loop common to the example scripts of the documentation, as far as epochs are concerned; see `Verif.Model.Double`
for the conventions.
-/

namespace Openspace.F64

noncomputable section

variable {ι : Type} [DecidableEq ι]

/-- the epochs of all spacecraft after `Spacecraft.step` (artificial.py 414-417) with the step size that `RK4.__init__`
sets (inertial.py 13, 26) -/
def spacecraftStep (tracks : ι → Option ι) (depth : ℕ) (self : ι) (w : ι → ℝ) : Option (ι → ℝ) :=
  updateAttitude tracks depth self (Function.update w self (step 300 (w self)))

/-- The loop of the examples (docs/source/examples/example_propagation.py 37-41, example_kalman.py 37-41,
example_sensing.py 33-37):

    while chase.current_epoch().value < end_epoch.value:
        chase.step()
        target.step_to_epoch(chase.current_epoch())

without the rest of the body, which leaves the clocks alone.  The first number is the largest number of iterations
followed (`none` if there are more); the result is the number of iterations and the clocks. -/
def simulate (tracks : ι → Option ι) (depth : ℕ) (chase target : ι) (stop : ℝ) :
    ℕ → (ι → ℝ) → Option (ℕ × (ι → ℝ))
  | fuel, w =>
    if w chase < stop then
      match fuel with
      | 0 => none
      | fuel + 1 =>
        match spacecraftStep tracks depth chase w with
        | none => none
        | some w1 =>
          match spacecraftStepToEpoch tracks depth target (w1 chase) w1 with
          | none => none
          | some w2 => (simulate tracks depth chase target stop fuel w2).map fun r => (r.1 + 1, r.2)
    else some (0, w)

end

end Openspace.F64
