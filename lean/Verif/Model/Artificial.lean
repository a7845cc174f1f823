import Verif.Model.Inertial
import Verif.Model.Filtering
import Verif.Model.Hardware

/-!
# Model of `/repo/src/openspace/bodies/artificial.py`

Spacecraft hold references to other spacecraft (`tracked_target`) and calls on one of them can
mutate another, so they live in a world `World ι = ι → Spacecraft ι` where `ι` is the (finite)
type of object identities.  Methods that only read take the spacecraft by value.
-/

namespace Openspace

noncomputable section

/-- `Spacecraft` (artificial.py 17-106).  `filter`, `tracked_target` and `slew_stop` are declared
but not assigned by `__init__`; they are `none` until assigned. -/
@[ext] structure Spacecraft (ι : Type) where
  initial_state : GCRF
  albedo : ℝ
  body_radius : ℝ
  wfov : Camera
  nfov : Camera
  filter : Option RelativeKalman
  steering : String
  tracked_target : Option ι
  slewing : Bool
  slew_stop : Option Epoch
  slew_scalar : ℝ
  pointing_accuracy : ℝ
  m_dot : ℝ
  isp : ℝ
  dry_mass : ℝ
  propellant_mass : ℝ
  propagator : RK4
  body_x : Vec3
  body_y : Vec3
  body_z : Vec3

/-- all spacecraft objects of a program -/
abbrev World (ι : Type) := ι → Spacecraft ι

namespace Spacecraft

variable {ι : Type}

/-- `Spacecraft.DEFAULT_RADIUS` (artificial.py 20) -/
def DEFAULT_RADIUS : ℝ := 0.005

/-- `Spacecraft.DEFAULT_ALBEDO` (artificial.py 23) -/
def DEFAULT_ALBEDO : ℝ := 0.3

/-- `Spacecraft.STEERING_MODES[0]` (artificial.py 26) -/
def LVLH : String := "lvlh"

/-- `Spacecraft.STEERING_MODES[1]` (artificial.py 26) -/
def SOLAR : String := "solar"

/-- `Spacecraft.STEERING_MODES[2]` (artificial.py 26) -/
def TARGET : String := "target"

/-- `Spacecraft.DEFAULT_SLEW_SCALE` (artificial.py 29) -/
def DEFAULT_SLEW_SCALE : ℝ := 1 / (pyRadians 0.5 * SECONDS_IN_DAY)

/-- `Spacecraft.DEFAULT_POINTING_ACCURACY` (artificial.py 32) -/
def DEFAULT_POINTING_ACCURACY : ℝ := 1e-5

/-- `Spacecraft.DEFAULT_MASS` (artificial.py 35) -/
def DEFAULT_MASS : ℝ := 600

/-- `Spacecraft.DEFAULT_PROP_MASS` (artificial.py 38) -/
def DEFAULT_PROP_MASS : ℝ := 200

/-- `Spacecraft.DEFAULT_M_DOT` (artificial.py 41) -/
def DEFAULT_M_DOT : ℝ := 0.003

/-- `Spacecraft.DEFAULT_ISP` (artificial.py 44) -/
def DEFAULT_ISP : ℝ := 350

/-! ## Read-only methods -/

/-- `Spacecraft.area` (artificial.py 108-114) -/
def area (s : Spacecraft ι) : ℝ := pyPi * s.body_radius * s.body_radius

/-- `Spacecraft.total_mass` (artificial.py 124-130) -/
def totalMass (s : Spacecraft ι) : ℝ := s.dry_mass + s.propellant_mass

/-- `Spacecraft.srp_scalar` (artificial.py 116-122) -/
def srpScalar (s : Spacecraft ι) : Py ℝ :=
  pyDiv ((s.albedo + 1) * s.area * BASE_IN_KILO * BASE_IN_KILO) s.totalMass

/-- `Spacecraft.current_state` (artificial.py 472-478) -/
def currentState (s : Spacecraft ι) : GCRF := s.propagator.state.copy

/-- `Spacecraft.current_epoch` (artificial.py 480-486) -/
def currentEpoch (s : Spacecraft ι) : Epoch := s.currentState.epoch.copy

/-- `Spacecraft.position` (artificial.py 406-412) -/
def position (s : Spacecraft ι) : Vec3 := s.currentState.position.copy

/-- `Spacecraft.velocity` (artificial.py 316-322) -/
def velocity (s : Spacecraft ι) : Vec3 := s.propagator.state.velocity.copy

/-- `Spacecraft.sma` (artificial.py 161-167) -/
def sma (s : Spacecraft ι) : Py ℝ := aFromMuRV Earth.MU s.position.magnitude s.velocity.magnitude

/-- `Spacecraft.sun_vector` (artificial.py 428-434) -/
def sunVector (s : Spacecraft ι) : Vec3 := s.currentState.sunVector

/-- `Spacecraft.moon_vector` (artificial.py 436-442) -/
def moonVector (s : Spacecraft ι) : Py Vec3 := s.currentState.moonVector

/-- `Spacecraft.earth_vector` (artificial.py 444-450) -/
def earthVector (s : Spacecraft ι) : Vec3 := s.position.scaled (-1)

/-- `Spacecraft.target_vector` (artificial.py 452-460) -/
def targetVector (s target : Spacecraft ι) : Vec3 := target.position.minus s.position

/-- `Spacecraft.hill_position` (artificial.py 462-470) -/
def hillPosition (s target : Spacecraft ι) : Py Vec3 := do
  let h ← gcrfToHcw s.currentState target.currentState
  pure h.position

/-- `Spacecraft.range` (artificial.py 396-404) -/
def range (s target : Spacecraft ι) : ℝ := (s.targetVector target).magnitude

/-- `Spacecraft.sun_angle` (artificial.py 366-374) -/
def sunAngle (s target : Spacecraft ι) : Py ℝ := s.sunVector.angle (s.targetVector target)

/-- `Spacecraft.moon_angle` (artificial.py 376-384) -/
def moonAngle (s target : Spacecraft ι) : Py ℝ := do
  let m ← s.moonVector
  m.angle (s.targetVector target)

/-- `Spacecraft.earth_angle` (artificial.py 386-394) -/
def earthAngle (s target : Spacecraft ι) : Py ℝ := s.earthVector.angle (s.targetVector target)

/-- `Spacecraft.visual_magnitude` (artificial.py 345-364) -/
def visualMagnitude (s target : Spacecraft ι) : Py ℝ := do
  let r := s.body_radius
  let dist := s.range target
  let sa ← s.sunAngle target
  let phi := pyPi - sa
  let k ← pyDiv ((2 / 3) * s.albedo * r * r) (pyPi * dist * dist)
  let fdiff := k * (pySin phi + (pyPi - phi) * pyCos phi)
  let l ← pyLog10 fdiff
  pure (-26.74 - 2.5 * l)

/-- `Spacecraft.detect` (artificial.py 324-343) -/
def detect (s target : Spacecraft ι) : Py Bool := do
  let sa ← s.sunAngle target
  if sa < s.wfov.limits.sun_soft then pure false
  else do
    let ea ← s.earthAngle target
    if ea < s.wfov.limits.earth then pure false
    else do
      let ma ← s.moonAngle target
      if ma < s.wfov.limits.moon then pure false
      else do
        let vm ← s.visualMagnitude target
        if vm > s.wfov.limits.vismag then pure false
        else do
          let ba ← s.body_z.angle (s.targetVector target)
          if ba > s.wfov.limits.bore then pure false
          else pure true

/-- the common body of `observe_wfov` and `observe_nfov` (artificial.py 189-197 and 207-215);
`z1 z2 u` are the random draws of `with_noise` -/
def observe (cam : Camera) (s target : Spacecraft ι) (z1 z2 u : ℝ) : Py SpaceObservation := do
  let truth_vector := s.targetVector target
  let truth_range := truth_vector.magnitude
  let range_error ← cam.rangeError truth_range (target.body_radius * 2)
  let noisy ← truth_vector.withNoise range_error s.pointing_accuracy z1 z2 u
  pure (SpaceObservation.new s.currentState noisy range_error s.pointing_accuracy)

/-- `Spacecraft.observe_wfov` (artificial.py 181-197) -/
def observeWfov (s target : Spacecraft ι) (z1 z2 u : ℝ) : Py SpaceObservation :=
  observe s.wfov s target z1 z2 u

/-- `Spacecraft.observe_nfov` (artificial.py 199-215) -/
def observeNfov (s target : Spacecraft ι) (z1 z2 u : ℝ) : Py SpaceObservation :=
  observe s.nfov s target z1 z2 u

/-! ## Attitude assignments (the three branches of `update_attitude`) -/

/-- branch `lvlh` of `update_attitude` (artificial.py 237-246) -/
def lvlhAttitude (s : Spacecraft ι) : Spacecraft ι :=
  let z := s.earthVector
  let y := s.position.cross s.velocity
  { s with body_z := z, body_y := y, body_x := y.cross z }

/-- branch `solar` of `update_attitude` (artificial.py 248-257) -/
def solarAttitude (s : Spacecraft ι) : Spacecraft ι :=
  let z := s.sunVector.scaled (-1)
  let x := z.cross ⟨0, 0, 1⟩
  { s with body_z := z, body_x := x, body_y := z.cross x }

/-- the assignments of branch `target` of `update_attitude` (artificial.py 265-272) -/
def targetAttitude (s target : Spacecraft ι) : Spacecraft ι :=
  let z := s.targetVector target
  let y := z.cross s.sunVector
  { s with body_z := z, body_y := y, body_x := y.cross z }

/-- the end of `update_attitude` (artificial.py 274-276) -/
def finishSlew (s : Spacecraft ι) : Py (Spacecraft ι) :=
  if s.slewing then
    match s.slew_stop with
    | none => .error .attributeError
    | some stop => .ok (if s.currentEpoch.value > stop.value then { s with slewing := false } else s)
  else .ok s

/-- `Spacecraft.__init__` (artificial.py 46-106).  The call of `update_attitude` on line 106 is
always in mode `lvlh` and not slewing. -/
def new (state : GCRF) : Py (Spacecraft ι) := do
  let wfov ← Camera.wfov
  let nfov ← Camera.nfov
  let s0 : Spacecraft ι :=
    { initial_state := state.copy
      albedo := DEFAULT_ALBEDO
      body_radius := DEFAULT_RADIUS
      wfov := wfov
      nfov := nfov
      filter := none
      steering := LVLH
      tracked_target := none
      slewing := false
      slew_stop := none
      slew_scalar := DEFAULT_SLEW_SCALE
      pointing_accuracy := DEFAULT_POINTING_ACCURACY
      m_dot := DEFAULT_M_DOT
      isp := DEFAULT_ISP
      dry_mass := DEFAULT_MASS
      propellant_mass := DEFAULT_PROP_MASS
      propagator := RK4.new state.copy
      body_x := ⟨0, 0, 0⟩
      body_y := ⟨0, 0, 0⟩
      body_z := ⟨0, 0, 0⟩ }
  let srp ← s0.srpScalar
  let init := { s0.initial_state with srp_scalar := srp }
  let s1 := { s0 with initial_state := init, propagator := RK4.new init }
  pure s1.lvlhAttitude

/-! ## Methods that mutate the world -/

variable [DecidableEq ι]

/-- read the attributes of object `i` -/
def read (i : ι) : PyM (World ι) (Spacecraft ι) := fun w => (.ok (w i), w)

/-- assign attributes of object `i` -/
def assign (i : ι) (f : Spacecraft ι → Spacecraft ι) : PyM (World ι) Unit :=
  PyM.modify fun w => Function.update w i (f (w i))

/-- call a method of `i.propagator` -/
def onPropagator {α : Type} (i : ι) (m : PyM RK4 α) : PyM (World ι) α :=
  PyM.zoom (fun w => (w i).propagator)
    (fun w p => Function.update w i { w i with propagator := p }) m

/-- `Spacecraft.update_attitude` (artificial.py 235-276).  The first argument is the remaining
recursion depth (`update_attitude` calls `step_to_epoch` of the tracked spacecraft, which calls
`update_attitude` of that spacecraft); Python raises `RecursionError` when it is used up. -/
def updateAttitude : Nat → ι → PyM (World ι) Unit
  | 0, _ => PyM.throw .recursionError
  | depth + 1, self => do
    let s ← read self
    if s.steering = LVLH then
      assign self lvlhAttitude
    else if s.steering = SOLAR then
      assign self solarAttitude
    else if s.steering = TARGET then do
      match s.tracked_target with
      | none => PyM.throw .attributeError
      | some t => do
        let tgt ← read t
        if tgt.currentEpoch.value ≠ s.currentEpoch.value then do
          onPropagator t (RK4.stepToEpoch s.currentEpoch)
          updateAttitude depth t
        else pure ()
        let tgt ← read t
        assign self fun s => s.targetAttitude tgt
    else pure ()
    let s ← read self
    let s' ← PyM.lift s.finishSlew
    assign self fun _ => s'

/-- `Spacecraft.step_to_epoch` (artificial.py 419-426) -/
def stepToEpoch (depth : Nat) (self : ι) (epoch : Epoch) : PyM (World ι) Unit := do
  onPropagator self (RK4.stepToEpoch epoch)
  updateAttitude depth self

/-- `Spacecraft.step` (artificial.py 414-417) -/
def step (depth : Nat) (self : ι) : PyM (World ι) Unit := do
  onPropagator self RK4.step
  updateAttitude depth self

/-- the slew prologue shared by the three `track_*` methods (artificial.py 282-285, 293-296,
308-312): the flag is raised before the slew time is computed -/
def beginSlew (self : ι) (mode : String) (target : Option ι) (pointing : Spacecraft ι → World ι → Vec3) :
    PyM (World ι) Unit := do
  assign self fun s =>
    { s with
      steering := mode
      tracked_target := if target.isSome then target else s.tracked_target
      slewing := true }
  let w ← PyM.get
  let s ← read self
  let ang ← PyM.lift (s.body_z.angle (pointing s w))
  assign self fun s => { s with slew_stop := some (s.currentEpoch.plusDays (ang * s.slew_scalar)) }

/-- `Spacecraft.track_lvlh` (artificial.py 278-287) -/
def trackLvlh (depth : Nat) (self : ι) : PyM (World ι) Unit := do
  let s ← read self
  if s.steering ≠ LVLH then
    beginSlew self LVLH none fun s _ => s.position.scaled (-1)
  else pure ()
  updateAttitude depth self

/-- `Spacecraft.track_sun` (artificial.py 289-298) -/
def trackSun (depth : Nat) (self : ι) : PyM (World ι) Unit := do
  let s ← read self
  if s.steering ≠ SOLAR then
    beginSlew self SOLAR none fun s _ => s.sunVector.scaled (-1)
  else pure ()
  updateAttitude depth self

/-- `Spacecraft.track_state` (artificial.py 300-314) -/
def trackState (depth : Nat) (self target : ι) : PyM (World ι) Unit := do
  let s ← read self
  if s.steering ≠ TARGET then
    beginSlew self TARGET (some target) fun s w => s.targetVector (w target)
  else pure ()
  updateAttitude depth self

/-- `Spacecraft.impulsive_maneuver` (artificial.py 132-140) -/
def impulsiveManeuver (self : ι) (ric_burn : Vec3) : PyM (World ι) Unit := do
  let s ← read self
  let g ← PyM.lift (hcwToGcrf (State.new s.currentEpoch ⟨0, 0, 0⟩ ric_burn) s.currentState)
  assign self fun s => { s with propagator := RK4.new g }

/-- `Spacecraft.finite_maneuver` (artificial.py 142-159) -/
def finiteManeuver (self : ι) (ric_dv : Vec3) : PyM (World ι) Unit := do
  let s ← read self
  let fm ← PyM.lift (frameMatrix s.currentState)
  let gcrf_thrust := fm.mulVec ric_dv
  onPropagator self (RK4.maneuver gcrf_thrust s.m_dot s.totalMass s.isp)
  let s ← read self
  let m_spec ← PyM.lift (pyDiv s.m_dot s.totalMass)
  let r ← PyM.lift (pyDiv (-1) m_spec)
  let x ← PyM.lift (pyDiv (m_spec * gcrf_thrust.magnitude) (-s.isp * m_spec * SEA_LEVEL_G))
  let dt := r * (1 - pyExp x)
  assign self fun s => { s with propellant_mass := s.propellant_mass - s.m_dot * dt }

/-- `Spacecraft.acquire` (artificial.py 169-179) -/
def acquire (depth : Nat) (self seed : ι) : PyM (World ι) Unit := do
  let s ← read self
  let t ← read seed
  let rel ← PyM.lift (gcrfToHcw s.currentState t.currentState)
  let a ← PyM.lift s.sma
  let hill ← PyM.lift (Hill.new rel a)
  let flt ← PyM.lift (RelativeKalman.new s.currentEpoch hill)
  assign self fun s => { s with filter := some flt }
  trackState depth self seed

/-- `self.filter.process(ob)` -/
def filterProcess (self : ι) (ob : SpaceObservation) : PyM (World ι) Unit := do
  let s ← read self
  match s.filter with
  | none => PyM.throw .attributeError
  | some flt =>
    PyM.zoom (fun _ => flt) (fun w f => Function.update w self { w self with filter := some f })
      (RelativeKalman.process ob)

/-- `Spacecraft.process_wfov` (artificial.py 217-224) -/
def processWfov (self target : ι) (z1 z2 u : ℝ) : PyM (World ι) Unit := do
  let s ← read self
  let t ← read target
  let ob ← PyM.lift (s.observeWfov t z1 z2 u)
  filterProcess self ob

/-- `Spacecraft.process_nfov` (artificial.py 226-233) -/
def processNfov (self target : ι) (z1 z2 u : ℝ) : PyM (World ι) Unit := do
  let s ← read self
  let t ← read target
  let ob ← PyM.lift (s.observeNfov t z1 z2 u)
  filterProcess self ob

end Spacecraft

end

end Openspace
