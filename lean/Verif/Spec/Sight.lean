import Mathlib.Data.Real.Basic

namespace Openspace.Spec

/-- The bound for the error, in km, of the vector from a ground site to a target that is computed in double precision: a part `k` of
the distance `P` of the target from the centre of the Earth, which comes from the computed rotation of the Earth, a part for the
position of the site at height `h`, and a part of the range `r`. -/
noncomputable def sightError (k P h r : ℝ) : ℝ := k * P + 3e-15 * (6400 + |h|) + 2.1e-14 * r

end Openspace.Spec
