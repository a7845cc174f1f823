import Mathlib.LinearAlgebra.Matrix.PosDef

/-! # Specification of the linear measurement update -/

namespace Openspace.Spec

open Matrix

variable {m n : Type} [Fintype m] [Fintype n] [DecidableEq m] [DecidableEq n]

/-- The covariance of the error of the estimate `x̂ + K (z - H x̂)` when the error of `x̂` has covariance
`P`, `z = H x + v`, and the measurement error `v` is uncorrelated with it and has covariance `R`:
`cov((1 - K H) e - K v)`. -/
def updatedCovariance (P : Matrix n n ℝ) (H : Matrix m n ℝ) (R : Matrix m m ℝ) (K : Matrix n m ℝ) :
    Matrix n n ℝ :=
  (1 - K * H) * P * (1 - K * H)ᵀ + K * R * Kᵀ

/-- The error `e` is compatible with the covariance `P`: along every direction `w` it is at most `√c` times the standard
deviation that `P` gives to that direction. -/
def Within (c : ℝ) (e : n → ℝ) (P : Matrix n n ℝ) : Prop :=
  ∀ w : n → ℝ, (w ⬝ᵥ e) ^ 2 ≤ c * (w ⬝ᵥ P *ᵥ w)

end Openspace.Spec
