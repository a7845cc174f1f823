import Mathlib.Probability.Distributions.Gaussian.Real
import Mathlib.MeasureTheory.Integral.Prod

/-!
# The numbers drawn from the random generator

`random.gauss(mu, sigma)` is `mu + z * sigma` with a standard normal number `z`, and `random.uniform(a, b)` is `a + (b - a) * u`
with a number `u` uniform between 0 and 1.
-/

namespace Openspace.Spec

open MeasureTheory ProbabilityTheory

/-- two standard normal numbers and one uniform between 0 and 1, independent of each other -/
noncomputable def draws : Measure (ℝ × ℝ × ℝ) :=
  (gaussianReal 0 1).prod ((gaussianReal 0 1).prod (volume.restrict (Set.Icc 0 1)))

end Openspace.Spec
