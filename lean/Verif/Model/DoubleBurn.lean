import Verif.Model.DoubleForces
import Verif.Model.Inertial

/-!
# Finite burns in double precision

`RK4.thrust_vector` and the burn time of `RK4.maneuver` with every operation rounded to the nearest double, under the
conventions of `Model/Double`.  `ln` is `math.log` on its domain.
-/

namespace Openspace.F64

noncomputable section

/-- `SEA_LEVEL_G` (constants.py 23) -/
def seaLevelG : ℝ := rnd SEA_LEVEL_G

/-- `math.e` -/
def euler : ℝ := rnd (Real.exp 1)

/-- `math.log` -/
def mathLog (ln : ℝ → ℝ) (x : ℝ) : Py ℝ := if x ≤ 0 then .error .valueError else .ok (ln x)

/-- `RK4.thrust_vector` (inertial.py 129-148) -/
def thrustVector (ln : ℝ → ℝ) (m_dot m0 isp : ℝ) (direction : Vec3) (dt : ℝ) : Py Vec3 :=
  if m_dot ≠ 0 then
    if dt = 0 then do
      let n ← normalized direction
      let k ← div (rnd (rnd (m_dot * isp) * seaLevelG)) m0
      pure (scaled n k)
    else do
      let q ← div (rnd (m_dot * dt)) m0
      let l ← mathLog ln (rnd (1 - q))
      let mt := rnd (m0 - rnd (m_dot * dt))
      let f := rnd (rnd (m_dot * isp) * seaLevelG)
      let n ← normalized direction
      let g ← div (-f) m_dot
      let dv := scaled n (rnd (g * l))
      let a1 ← div m_dot mt
      let q2 ← div (rnd (m_dot * dt)) m0
      let l2 ← mathLog ln (rnd (1 - q2))
      let a2 ← div 1 (-l2)
      pure (scaled dv (rnd (a1 * a2)))
  else pure ⟨0, 0, 0⟩

/-- the burn time `dv_duration` of `RK4.maneuver` (inertial.py 88-91) -/
def burnDuration (lib : Libm) (gcrf_thrust : Vec3) (m_dot m0 isp : ℝ) : Py ℝ := do
  let m_spec ← div m_dot m0
  let r ← div 1 m_spec
  let x ← div (rnd (m_spec * magnitude gcrf_thrust)) (rnd (rnd (-isp * m_spec) * seaLevelG))
  pure (rnd (r * rnd (1 - lib.pow euler x)))

end

end Openspace.F64
