import Verif.Spec.Linalg

/-!
# The classical fourth-order Runge-Kutta step

Written for an arbitrary real vector space, without reference to the library.
-/

namespace Openspace.Spec

noncomputable section

variable {E : Type} [AddCommGroup E] [Module ℝ E]

/-- one step of size `h` from `(t, y)` of the classical Runge-Kutta method for `y' = f t y` -/
def rk4 (f : ℝ → E → E) (t h : ℝ) (y : E) : E :=
  let k1 := f t y
  let k2 := f (t + h / 2) (y + (h / 2) • k1)
  let k3 := f (t + h / 2) (y + (h / 2) • k2)
  let k4 := f (t + h) (y + h • k3)
  y + (h / 6) • (k1 + (2 : ℝ) • k2 + (2 : ℝ) • k3 + k4)

/-- phase space: position and velocity -/
abbrev Phase := (Fin 3 → ℝ) × (Fin 3 → ℝ)

/-- a pair of `Vector3D` as a point of phase space -/
def phase (r v : Vec3) : Phase := (r.toFun, v.toFun)

end

end Openspace.Spec
