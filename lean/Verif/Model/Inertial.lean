import Verif.Model.States

/-!
# Model of `/repo/src/openspace/propagators/inertial.py`
-/

namespace Openspace

noncomputable section

/-- `RK4` (inertial.py 10-37) -/
@[ext] structure RK4 where
  state : GCRF
  step_size : ℝ
  m_dot : ℝ
  m0 : ℝ
  thrust_direction : Vec3
  isp : ℝ

namespace RK4

/-- `RK4.MAX_STEP` (inertial.py 13) -/
def MAX_STEP : ℝ := 300

/-- `RK4.__init__` (inertial.py 15-37) -/
def new (state : GCRF) : RK4 :=
  ⟨state.copy, MAX_STEP, 0, 0, ⟨0, 0, 0⟩, 0⟩

/-- `RK4.thrust_vector` (inertial.py 129-148) -/
def thrustVector (p : RK4) (dt : ℝ) : Py Vec3 :=
  if p.m_dot ≠ 0 then
    if dt = 0 then do
      let n ← p.thrust_direction.normalized
      let k ← pyDiv (p.m_dot * p.isp * SEA_LEVEL_G) p.m0
      pure (n.scaled k)
    else do
      let q ← pyDiv (p.m_dot * dt) p.m0
      let ln ← pyLog (1 - q)
      let mt := p.m0 - p.m_dot * dt
      let f := p.m_dot * p.isp * SEA_LEVEL_G
      let n ← p.thrust_direction.normalized
      let g ← pyDiv (-f) p.m_dot
      let dv := n.scaled (g * ln)
      let a1 ← pyDiv p.m_dot mt
      let q2 ← pyDiv (p.m_dot * dt) p.m0
      let ln2 ← pyLog (1 - q2)
      let a2 ← pyDiv 1 (-ln2)
      pure (dv.scaled (a1 * a2))
  else pure ⟨0, 0, 0⟩

/-- a stage of the integrator: build a `GCRF`, assign its thrust, evaluate the derivative
(inertial.py 53-55, 57-59, 62-64) -/
def stage (p : RK4) (epoch : Epoch) (r v : Vec3) (dt : ℝ) : Py (Vec3 × Vec3) := do
  let t ← p.thrustVector dt
  let y := { GCRF.new epoch r v with thrust := t }
  y.derivative

/-- `RK4.step` (inertial.py 39-74).  The thrust of the current state is assigned before the
first evaluation, so it stays assigned if a later line raises. -/
def step : PyM RK4 Unit := do
  let p ← PyM.get
  let h := p.step_size
  let epoch_0 := p.state.epoch.copy
  let t0 ← PyM.lift (p.thrustVector 0)
  PyM.modify fun p => { p with state := { p.state with thrust := t0 } }
  let p ← PyM.get
  let y0 := p.state.position
  let y1 := p.state.velocity
  let k1 ← PyM.lift p.state.derivative
  let dsecs := h / 2
  let ddays := dsecs / SECONDS_IN_DAY
  let epoch_1 := epoch_0.plusDays ddays
  let k2 ← PyM.lift (p.stage epoch_1 (y0.plus (k1.1.scaled dsecs)) (y1.plus (k1.2.scaled dsecs)) dsecs)
  let k3 ← PyM.lift (p.stage epoch_1 (y0.plus (k2.1.scaled dsecs)) (y1.plus (k2.2.scaled dsecs)) dsecs)
  let epoch_2 := epoch_1.plusDays ddays
  let k4 ← PyM.lift (p.stage epoch_2 (y0.plus (k3.1.scaled h)) (y1.plus (k3.2.scaled h)) (dsecs * 2))
  let coeff : ℝ := 1 / 6
  let dv := (k1.1.plus ((k2.1.scaled 2).plus ((k3.1.scaled 2).plus k4.1))).scaled coeff
  let da := (k1.2.plus ((k2.2.scaled 2).plus ((k3.2.scaled 2).plus k4.2))).scaled coeff
  PyM.modify fun p =>
    { p with
      state := GCRF.new epoch_2 (p.state.position.plus (dv.scaled h))
        (p.state.velocity.plus (da.scaled h)) }

/-- `RK4.step_to_epoch` (inertial.py 100-127) -/
def stepToEpoch (epoch : Epoch) : PyM RK4 Unit := do
  let p ← PyM.get
  let dt := (epoch.value - p.state.epoch.value) * SECONDS_IN_DAY
  let num_steps := pyCeilNat (pyAbs (dt / MAX_STEP))
  let old_step := p.step_size
  if num_steps > 0 then
    PyM.modify fun p => { p with step_size := dt / ofNat num_steps }
  else pure ()
  PyM.repeatN num_steps step
  PyM.modify fun p => { p with step_size := old_step }

/-- the burn time `dv_duration` of `RK4.maneuver` (inertial.py 88-91) -/
def burnDuration (gcrf_thrust : Vec3) (m_dot m0 isp : ℝ) : Py ℝ := do
  let m_spec ← pyDiv m_dot m0
  let r ← pyDiv 1 m_spec
  let x ← pyDiv (m_spec * gcrf_thrust.magnitude) (-isp * m_spec * SEA_LEVEL_G)
  pure (r * (1 - pyExp x))

/-- `RK4.maneuver` (inertial.py 76-98) -/
def maneuver (gcrf_thrust : Vec3) (m_dot m0 isp : ℝ) : PyM RK4 Unit := do
  let dv_duration ← PyM.lift (burnDuration gcrf_thrust m_dot m0 isp)
  PyM.modify fun p =>
    { p with thrust_direction := gcrf_thrust.copy, m0 := m0, m_dot := m_dot, isp := isp }
  let p ← PyM.get
  stepToEpoch (p.state.epoch.plusDays (dv_duration / SECONDS_IN_DAY))
  PyM.modify fun p => { p with m0 := 0, m_dot := 0 }

end RK4

end

end Openspace
