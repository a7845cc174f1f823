import Verif.Model.Double
import Verif.Model.DoubleBurn
import Verif.Model.DoubleGravity
import Verif.Model.Inertial

/-!
# The inertial propagator in double precision

`GCRF.derivative` and a step of `RK4` with every operation rounded to the nearest double, under the conventions of
`Model/DoubleEarth`; `tan` and `ln` are the tangent and the natural logarithm of the C library.
-/

namespace Openspace.F64

noncomputable section

/-- `GCRF.derivative` (states.py 253-266): velocity and acceleration -/
def derivative (lib : Libm) (tan : ℝ → ℝ) (s : GCRF) : Py (Vec3 × Vec3) := do
  let ae ← accelerationFromEarth s.position
  let a1 := plus s.thrust ae
  if s.use_perturbations then do
    let am ← accelerationFromMoon lib s.position s.epoch.value
    let as ← accelerationFromSun lib s.position s.epoch.value
    let ap ← accelerationFromSrp lib s.position s.epoch.value s.srp_scalar
    let ag ← accelerationFromGravity lib tan s.position s.epoch.value
    pure (s.velocity, plus (plus (plus (plus a1 am) as) ap) ag)
  else pure (s.velocity, a1)

/-- a stage of the integrator: build a `GCRF`, assign its thrust, evaluate the derivative (inertial.py 53-55, 57-59,
62-64) -/
def stage (lib : Libm) (tan ln : ℝ → ℝ) (p : RK4) (epoch : ℝ) (r v : Vec3) (dt : ℝ) : Py (Vec3 × Vec3) := do
  let t ← thrustVector ln p.m_dot p.m0 p.isp p.thrust_direction dt
  derivative lib tan { GCRF.new ⟨epoch⟩ r v with thrust := t }

/-- `k1 + (2 * k2 + (2 * k3 + k4))` divided by six (inertial.py 66-68) -/
def mean (k1 k2 k3 k4 : Vec3) : Vec3 := scaled (plus k1 (plus (scaled k2 2) (plus (scaled k3 2) k4))) (rnd (1 / 6))

/-- the state after `RK4.step` (inertial.py 39-74) -/
def rk4Step (lib : Libm) (tan ln : ℝ → ℝ) (p : RK4) : Py GCRF := do
  let h := p.step_size
  let t0 ← thrustVector ln p.m_dot p.m0 p.isp p.thrust_direction 0
  let r := p.state.position
  let v := p.state.velocity
  let k1 ← derivative lib tan { p.state with thrust := t0 }
  let dsecs := rnd (h / 2)
  let ddays := rnd (dsecs / 86400)
  let epoch_1 := plusDays p.state.epoch.value ddays
  let k2 ← stage lib tan ln p epoch_1 (plus r (scaled k1.1 dsecs)) (plus v (scaled k1.2 dsecs)) dsecs
  let k3 ← stage lib tan ln p epoch_1 (plus r (scaled k2.1 dsecs)) (plus v (scaled k2.2 dsecs)) dsecs
  let epoch_2 := plusDays epoch_1 ddays
  let k4 ← stage lib tan ln p epoch_2 (plus r (scaled k3.1 h)) (plus v (scaled k3.2 h)) (rnd (dsecs * 2))
  let dv := mean k1.1 k2.1 k3.1 k4.1
  let da := mean k1.2 k2.2 k3.2 k4.2
  pure (GCRF.new ⟨epoch_2⟩ (plus r (scaled dv h)) (plus v (scaled da h)))

/-- the propagator after `n` calls of `RK4.step`, which changes the state only (inertial.py 70-74, 122-124) -/
def rk4Steps (lib : Libm) (tan ln : ℝ → ℝ) : ℕ → RK4 → Py RK4
  | 0, p => pure p
  | n + 1, p => do
    let s ← rk4Step lib tan ln p
    rk4Steps lib tan ln n { p with state := s }

/-- `RK4.step_to_epoch` (inertial.py 100-127) -/
def rk4StepToEpoch (lib : Libm) (tan ln : ℝ → ℝ) (t : ℝ) (p : RK4) : Py RK4 := do
  let dt := span t p.state.epoch.value
  let num_steps := numSteps t p.state.epoch.value
  let old_step := p.step_size
  let q := if num_steps > 0 then { p with step_size := rnd (dt / num_steps) } else p
  let q ← rk4Steps lib tan ln num_steps q
  pure { q with step_size := old_step }

end

end Openspace.F64
