import Verif.Model.Artificial

/-!
# The loop of the example scripts (`/repo/docs/source/examples`)
-/

namespace Openspace.Spacecraft

noncomputable section

variable {ι : Type} [DecidableEq ι]

/-- The loop of the examples (docs/source/examples/example_propagation.py 37-41, example_kalman.py 37-41,
example_sensing.py 33-37):

    while chase.current_epoch().value < end_epoch.value:
        chase.step()
        target.step_to_epoch(chase.current_epoch())
        body

`fuel` is the number of iterations followed; the result is the number of iterations made. -/
def simulate (depth : Nat) (chase target : ι) (stop : Epoch) (body : PyM (World ι) Unit) : Nat → PyM (World ι) Nat
  | 0 => do
    let c ← read chase
    if c.currentEpoch.value < stop.value then PyM.throw .outOfFuel else pure 0
  | fuel + 1 => do
    let c ← read chase
    if c.currentEpoch.value < stop.value then do
      step depth chase
      let c' ← read chase
      stepToEpoch depth target c'.currentEpoch
      body
      let n ← simulate depth chase target stop body fuel
      pure (n + 1)
    else pure 0

end

end Openspace.Spacecraft
