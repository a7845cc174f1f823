import Mathlib.Analysis.InnerProductSpace.PiL2

/-!
# Specification: perturbation by a third body

The disturbing function of a body of gravitational parameter `mu` at `s`, for motion relative to the
origin: the attraction potential at `x` less the linear potential of the attraction of the origin itself.
-/

namespace Openspace.Spec

/-- disturbing function of a third body -/
noncomputable def disturbing (mu : ℝ) (s x : EuclideanSpace ℝ (Fin 3)) : ℝ :=
  mu * (1 / ‖s - x‖ - inner ℝ s x / ‖s‖ ^ 3)

/-- attraction at `x` by a mass at `s` -/
noncomputable def attraction (mu : ℝ) (s x : EuclideanSpace ℝ (Fin 3)) : EuclideanSpace ℝ (Fin 3) :=
  (mu / ‖s - x‖ ^ 3) • (s - x)

end Openspace.Spec
