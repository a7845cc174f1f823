import Mathlib.Analysis.Complex.Exponential
import Verif.Spec.RungeKutta

/-! # Where the accuracy of a step in double precision is stated -/

namespace Openspace.Spec

noncomputable section

/-- a position at a distance of `R` to 120000 km from the centre of the Earth and at a declination up to 82 degrees -/
def Covered (R : ℝ) (p : Vec3) : Prop :=
  R ≤ p.magnitude ∧ p.magnitude ≤ 120000 ∧ |p.z| ≤ 8 * √(p.x ^ 2 + p.y ^ 2)

/-- a position at a distance of `R` to 120000 km from the centre of the Earth and at a declination up to 56 degrees -/
def Midlatitude (R : ℝ) (p : Vec3) : Prop :=
  R ≤ p.magnitude ∧ p.magnitude ≤ 120000 ∧ |p.z| ≤ 1.5 * √(p.x ^ 2 + p.y ^ 2)

/-- the rate (1/s) at which differences between two trajectories that stay `R` km from a centre of gravitational
parameter `mu` may grow: a little above `√(2 mu / R³)`, the rate of the central field -/
def growthRate (mu R : ℝ) : ℝ := √(3.02 * (mu / R ^ 3))

/-- what `N` steps of `h` seconds may do (km/s) to errors that enter in every step through a force with a relative error
`κ` and through the rounding of the state, at least `R` km from the centre -/
def runBound (mu R κ h : ℝ) (N : ℕ) : ℝ :=
  Real.exp (1.001 * (growthRate mu R * (N * h))) *
    (N * (2 * (h * (κ * (mu / R ^ 2) + 5e-15) + 4e-11 * growthRate mu R + 8e-15)))

/-- the points at which the classical Runge-Kutta step from `(t, y)` evaluates the derivative -/
def rk4Points {E : Type} [AddCommGroup E] [Module ℝ E] (f : ℝ → E → E) (t h : ℝ) (y : E) : List E :=
  let k1 := f t y
  let k2 := f (t + h / 2) (y + (h / 2) • k1)
  let k3 := f (t + h / 2) (y + (h / 2) • k2)
  [y, y + (h / 2) • k1, y + (h / 2) • k2, y + h • k3]

/-- The engine is off, or it burns at most nine tenths of the mass `m0` (kg) in `h` seconds, enough of it in half that
time for a double to notice, and pushes by at most 1e-3 km/s²; `g` is the gravity at sea level, `d` the direction. -/
def EngineOk (m_dot m0 isp g h : ℝ) (d : Vec3) : Prop :=
  m_dot = 0 ∨ 0 < m_dot ∧ 0 < m0 ∧ 0 ≤ isp ∧ d ≠ ⟨0, 0, 0⟩ ∧ m0 / 2 ^ 52 ≤ m_dot * (h / 2) ∧ m_dot * h ≤ 0.9 * m0 ∧
    m_dot * isp * g / (m0 - m_dot * h) ≤ 1e-3

end

end Openspace.Spec
