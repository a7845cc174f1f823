import Verif.Spec.Legendre
import Mathlib.Analysis.InnerProductSpace.PiL2
import Mathlib.Analysis.Complex.Basic

/-!
# Specification: the spherical-harmonic potential of a planet

As a function on space.  `geopotential_spherical` (in `Props/Gravity.lean`) shows that in
spherical coordinates it is the textbook series.
-/

namespace Openspace.Spec

/-- `cos^m(latitude) * e^(i m longitude)` of the direction of `x` -/
noncomputable def horizontal (m : ℕ) (x : EuclideanSpace ℝ (Fin 3)) : ℂ :=
  (((x 0 : ℂ) + (x 1 : ℂ) * Complex.I) / (‖x‖ : ℂ)) ^ m

/-- the term of degree `n` and order `m`, with cosine and sine coefficients `c` and `s` -/
noncomputable def harmonic (mu R c s : ℝ) (n m : ℕ) (x : EuclideanSpace ℝ (Fin 3)) : ℝ :=
  mu / ‖x‖ * (R / ‖x‖) ^ n * legendreDeriv n m (x 2 / ‖x‖) *
    (c * (horizontal m x).re + s * (horizontal m x).im)

/-- the part of degrees 2 to 4 of the potential, with fully normalised coefficients `Cbar`, `Sbar` -/
noncomputable def geopotential (mu R : ℝ) (x : EuclideanSpace ℝ (Fin 3)) : ℝ :=
  ∑ n ∈ Finset.Icc 2 4, ∑ m ∈ Finset.range (n + 1),
    harmonic mu R (Cbar n m * normFactor n m) (Sbar n m * normFactor n m) n m x

end Openspace.Spec
