import Mathlib.Analysis.Calculus.Deriv.Basic

/-! # Specification of linearised relative motion about a circular orbit -/

namespace Openspace.Spec

/-- The Clohessy-Wiltshire equations for a chief of mean motion `n`, with `x` radial, `y` along the
track and `z` across it:  `x'' = 3 n² x + 2 n y'`, `y'' = -2 n x'`, `z'' = -n² z`. -/
structure ClohessyWiltshire (n : ℝ) (x y z vx vy vz : ℝ → ℝ) : Prop where
  dx : ∀ t, HasDerivAt x (vx t) t
  dy : ∀ t, HasDerivAt y (vy t) t
  dz : ∀ t, HasDerivAt z (vz t) t
  dvx : ∀ t, HasDerivAt vx (3 * n ^ 2 * x t + 2 * n * vy t) t
  dvy : ∀ t, HasDerivAt vy (-(2 * n * vx t)) t
  dvz : ∀ t, HasDerivAt vz (-(n ^ 2 * z t)) t

end Openspace.Spec
