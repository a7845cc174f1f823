import Verif.Model.Celestial

/-!
# Model of `/repo/src/openspace/planning/maneuvers.py`
-/

namespace Openspace

noncomputable section

/-- `VisViva.circular_velocity` (maneuvers.py 13-22) -/
def circularVelocity (r : ℝ) : Py ℝ := do
  let q ← pyDiv Earth.MU r
  pySqrt q

/-- `VisViva.eccentric_velocity` (maneuvers.py 24-35) -/
def eccentricVelocity (r a : ℝ) : Py ℝ := do
  let t1 ← pyDiv 2 r
  let t2 ← pyDiv 1 a
  pySqrt (Earth.MU * (t1 - t2))

/-- the attributes of `Hohmann` (maneuvers.py 38-64) -/
@[ext] structure Hohmann where
  initial_velocity : ℝ
  transfer_velocity_1 : ℝ
  transfer_velocity_2 : ℝ
  final_velocity : ℝ
  delta_v_1 : ℝ
  delta_v_2 : ℝ

/-- `Hohmann.__init__` (maneuvers.py 39-64) -/
def Hohmann.new (r1 r2 : ℝ) : Py Hohmann := do
  let sma := (r1 + r2) / 2
  let initial_velocity ← circularVelocity r1
  let transfer_velocity_1 ← eccentricVelocity r1 sma
  let transfer_velocity_2 ← eccentricVelocity r2 sma
  let final_velocity ← circularVelocity r2
  pure ⟨initial_velocity, transfer_velocity_1, transfer_velocity_2, final_velocity,
    transfer_velocity_1 - initial_velocity, final_velocity - transfer_velocity_2⟩

end

end Openspace
