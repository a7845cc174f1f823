import Verif.Model.Artificial

/-!
# Heap model of the constructors and accessors

The rest of the model treats objects as values.  Here the same constructors are written
against an explicit heap, in which an attribute holds a number, a flag, a string or a
*reference* to another object, so that two attributes may refer to the same object and
an assignment through one of them is seen through the other.

An address is an index into the list of all objects ever created (nothing is ever freed).
`type(self)` is the class name stored in the object.  Reading a missing attribute, or an
attribute of the wrong kind, is an `AttributeError` (Python raises `TypeError` for some
uses of an object of the wrong kind; the theorems do not depend on which one it is).
-/

namespace Openspace.Mem

/-- what an attribute can hold -/
inductive Val
  | num (x : ℝ)
  | flag (b : Bool)
  | str (s : String)
  | ref (a : ℕ)

/-- an object: its class and its `__dict__` -/
structure Obj where
  cls : String
  fields : String → Option Val

/-- all the objects created so far -/
abbrev Heap := List Obj

/-- programs over the heap -/
abbrev H := PyM Heap

noncomputable section

/-- `cls.__new__(cls)`: a new object without attributes -/
def alloc (cls : String) : H ℕ := fun h => (.ok h.length, h ++ [⟨cls, fun _ => none⟩])

/-- `a.f` -/
def getAttr (a : ℕ) (f : String) : H Val := fun h =>
  match h[a]? with
  | none => (.error .attributeError, h)
  | some o =>
    match o.fields f with
    | none => (.error .attributeError, h)
    | some v => (.ok v, h)

/-- `a.f = v` -/
def setAttr (a : ℕ) (f : String) (v : Val) : H Unit := fun h =>
  match h[a]? with
  | none => (.error .attributeError, h)
  | some o => (.ok (), h.set a ⟨o.cls, fun g => if g = f then some v else o.fields g⟩)

/-- `type(a)` -/
def typeOf (a : ℕ) : H String := fun h =>
  match h[a]? with
  | none => (.error .attributeError, h)
  | some o => (.ok o.cls, h)

/-- `a.f` used as a number -/
def getNum (a : ℕ) (f : String) : H ℝ := do
  match ← getAttr a f with
  | .num x => pure x
  | _ => PyM.throw .attributeError

/-- `a.f` used as an object -/
def getRef (a : ℕ) (f : String) : H ℕ := do
  match ← getAttr a f with
  | .ref b => pure b
  | _ => PyM.throw .attributeError

/-! ## time.py -/

/-- `Epoch.__init__` (time.py 21-27) -/
def epochNew (value : ℝ) : H ℕ := do
  let self ← alloc "Epoch"
  setAttr self "value" (.num value)
  pure self

/-- `Epoch.copy` (time.py 29-35) -/
def epochCopy (e : ℕ) : H ℕ := do
  let value ← getNum e "value"
  epochNew value

/-! ## linalg.py -/

/-- `Vector3D.__init__` (linalg.py 122-140) -/
def vec3New (x y z : ℝ) : H ℕ := do
  let self ← alloc "Vector3D"
  setAttr self "x" (.num x)
  setAttr self "y" (.num y)
  setAttr self "z" (.num z)
  pure self

/-- the components of a `Vector3D`, for the value-level arithmetic of `Model/Linalg.lean` -/
def vec3Get (a : ℕ) : H Vec3 := do
  let x ← getNum a "x"
  let y ← getNum a "y"
  let z ← getNum a "z"
  pure ⟨x, y, z⟩

/-- `Vector3D.copy` (linalg.py 183-189) -/
def vec3Copy (a : ℕ) : H ℕ := do
  let v ← vec3Get a
  vec3New v.x v.y v.z

/-- `Vector6D.__init__` (linalg.py 6-38) -/
def vec6New (x y z vx vy vz : ℝ) : H ℕ := do
  let self ← alloc "Vector6D"
  setAttr self "x" (.num x)
  setAttr self "y" (.num y)
  setAttr self "z" (.num z)
  setAttr self "vx" (.num vx)
  setAttr self "vy" (.num vy)
  setAttr self "vz" (.num vz)
  pure self

/-- the components of a `Vector6D` -/
def vec6Get (a : ℕ) : H Vec6 := do
  let x ← getNum a "x"
  let y ← getNum a "y"
  let z ← getNum a "z"
  let vx ← getNum a "vx"
  let vy ← getNum a "vy"
  let vz ← getNum a "vz"
  pure ⟨x, y, z, vx, vy, vz⟩

/-- `Vector6D.copy` (linalg.py 78-84) -/
def vec6Copy (a : ℕ) : H ℕ := do
  let v ← vec6Get a
  vec6New v.x v.y v.z v.vx v.vy v.vz

/-- `Vector6D.from_position_and_velocity` (linalg.py 40-51) -/
def vec6FromPosVel (r v : ℕ) : H ℕ := do
  let r ← vec3Get r
  let v ← vec3Get v
  vec6New r.x r.y r.z v.x v.y v.z

/-- `Matrix3D.__init__` (linalg.py 329-346) -/
def mat3New (r1 r2 r3 : ℕ) : H ℕ := do
  let self ← alloc "Matrix3D"
  setAttr self "row1" (.ref (← vec3Copy r1))
  setAttr self "row2" (.ref (← vec3Copy r2))
  setAttr self "row3" (.ref (← vec3Copy r3))
  pure self

/-- `Matrix3by6.__init__` (linalg.py 514-526) -/
def mat36New (r1 r2 r3 : ℕ) : H ℕ := do
  let self ← alloc "Matrix3by6"
  setAttr self "row1" (.ref (← vec6Copy r1))
  setAttr self "row2" (.ref (← vec6Copy r2))
  setAttr self "row3" (.ref (← vec6Copy r3))
  pure self

/-- `Matrix6by3.__init__` (linalg.py 629-669) -/
def mat63New (r1 r2 r3 r4 r5 r6 : ℕ) : H ℕ := do
  let self ← alloc "Matrix6by3"
  setAttr self "row1" (.ref (← vec3Copy r1))
  setAttr self "row2" (.ref (← vec3Copy r2))
  setAttr self "row3" (.ref (← vec3Copy r3))
  setAttr self "row4" (.ref (← vec3Copy r4))
  setAttr self "row5" (.ref (← vec3Copy r5))
  setAttr self "row6" (.ref (← vec3Copy r6))
  pure self

/-- `Matrix6D.__init__` (linalg.py 822-862) -/
def mat6New (r1 r2 r3 r4 r5 r6 : ℕ) : H ℕ := do
  let self ← alloc "Matrix6D"
  setAttr self "row1" (.ref (← vec6Copy r1))
  setAttr self "row2" (.ref (← vec6Copy r2))
  setAttr self "row3" (.ref (← vec6Copy r3))
  setAttr self "row4" (.ref (← vec6Copy r4))
  setAttr self "row5" (.ref (← vec6Copy r5))
  setAttr self "row6" (.ref (← vec6Copy r6))
  pure self

/-- a `Matrix6D` built from freshly computed rows, as `Hill.system_matrix` does -/
def mat6OfValue (m : Mat6) : H ℕ := do
  let r1 ← vec6New m.row1.x m.row1.y m.row1.z m.row1.vx m.row1.vy m.row1.vz
  let r2 ← vec6New m.row2.x m.row2.y m.row2.z m.row2.vx m.row2.vy m.row2.vz
  let r3 ← vec6New m.row3.x m.row3.y m.row3.z m.row3.vx m.row3.vy m.row3.vz
  let r4 ← vec6New m.row4.x m.row4.y m.row4.z m.row4.vx m.row4.vy m.row4.vz
  let r5 ← vec6New m.row5.x m.row5.y m.row5.z m.row5.vx m.row5.vy m.row5.vz
  let r6 ← vec6New m.row6.x m.row6.y m.row6.z m.row6.vx m.row6.vy m.row6.vz
  mat6New r1 r2 r3 r4 r5 r6

/-! ## states.py, elements.py -/

/-- `State.__init__` (states.py 13-33), run on an object already allocated -/
def stateInit (self epoch r v : ℕ) : H Unit := do
  setAttr self "epoch" (.ref (← epochCopy epoch))
  setAttr self "position" (.ref (← vec3Copy r))
  setAttr self "velocity" (.ref (← vec3Copy v))
  setAttr self "vector" (.ref (← vec6FromPosVel (← getRef self "position") (← getRef self "velocity")))

/-- `ITRF(epoch, r, v)`, `HCW(epoch, r, v)`, `IJK(epoch, r, v)`: subclasses whose `__init__`
only calls `State.__init__` (states.py 49-59, 76-86, 286-296) -/
def plainStateNew (cls : String) (epoch r v : ℕ) : H ℕ := do
  let self ← alloc cls
  stateInit self epoch r v
  pure self

/-- `GCRF.__init__` (states.py 119-138) -/
def gcrfNew (epoch r v : ℕ) : H ℕ := do
  let self ← alloc "GCRF"
  stateInit self epoch r v
  setAttr self "thrust" (.ref (← vec3New 0 0 0))
  setAttr self "srp_scalar" (.num 0)
  setAttr self "use_perturbations" (.flag true)
  pure self

/-- `State.copy` (states.py 35-37): `type(self)` decides which `__init__` runs -/
def stateCopy (s : ℕ) : H ℕ := do
  let cls ← typeOf s
  let epoch ← getRef s "epoch"
  let r ← getRef s "position"
  let v ← getRef s "velocity"
  if cls = "GCRF" then gcrfNew epoch r v else plainStateNew cls epoch r v

/-- `ClassicalElements.__init__` (elements.py 11-48) -/
def elementsNew (epoch : ℕ) (a e i raan arg_per ma : ℝ) : H ℕ := do
  let self ← alloc "ClassicalElements"
  setAttr self "epoch" (.ref (← epochCopy epoch))
  setAttr self "semimajor_axis" (.num a)
  setAttr self "eccentricity" (.num e)
  setAttr self "inclination" (.num i)
  setAttr self "raan" (.num raan)
  setAttr self "argument_of_perigee" (.num arg_per)
  setAttr self "mean_anomaly" (.num ma)
  pure self

/-! ## obs.py -/

/-- `SpaceObservation.__init__` (obs.py 24-57) -/
def spaceObNew (observer_state observed_direction : ℕ) (r_error ang_error : ℝ) : H ℕ := do
  let self ← alloc "SpaceObservation"
  setAttr self "observer_state" (.ref (← stateCopy observer_state))
  setAttr self "observed_direction" (.ref (← vec3Copy observed_direction))
  let spherical := SphericalPosition.fromCartesian (← vec3Get observed_direction)
  setAttr self "range" (.num spherical.radius)
  setAttr self "right_ascension" (.num spherical.right_ascension)
  setAttr self "declination" (.num spherical.declination)
  setAttr self "range_error" (.num r_error)
  setAttr self "angular_error" (.num ang_error)
  pure self

/-- `GroundObservation.__init__` (obs.py 77-112) -/
def groundObNew (observer_state observed_direction : ℕ) (r_error ang_error : ℝ) : H ℕ := do
  let self ← alloc "GroundObservation"
  setAttr self "observer_state" (.ref (← stateCopy observer_state))
  setAttr self "observed_direction" (.ref (← vec3Copy observed_direction))
  let d ← vec3Get observed_direction
  let spherical := SphericalPosition.fromCartesian ⟨d.y, d.x, d.z⟩
  setAttr self "range" (.num spherical.radius)
  setAttr self "azimuth" (.num spherical.right_ascension)
  setAttr self "elevation" (.num spherical.declination)
  setAttr self "range_error" (.num r_error)
  setAttr self "angular_error" (.num ang_error)
  pure self

/-- `SpaceObservation.epoch` / `GroundObservation.epoch` (obs.py 59-65, 139-145): the stored
object itself, not a copy -/
def obEpoch (ob : ℕ) : H ℕ := do
  getRef (← getRef ob "observer_state") "epoch"

/-! ## propagators -/

/-- `RK4.__init__` (inertial.py 15-37) -/
def rk4New (state : ℕ) : H ℕ := do
  let self ← alloc "RK4"
  setAttr self "state" (.ref (← stateCopy state))
  setAttr self "step_size" (.num 300)
  setAttr self "m_dot" (.num 0)
  setAttr self "m0" (.num 0)
  setAttr self "thrust_direction" (.ref (← vec3New 0 0 0))
  setAttr self "isp" (.num 0)
  pure self

/-- `Hill.__init__` (relative.py 13-31) -/
def hillNew (state : ℕ) (sma : ℝ) : H ℕ := do
  let self ← alloc "Hill"
  setAttr self "state" (.ref (← stateCopy state))
  setAttr self "sma" (.num sma)
  let n ← PyM.lift (do pySqrt (← pyDiv Earth.MU (sma * sma * sma)))
  setAttr self "n" (.num n)
  setAttr self "step_size" (.num 600)
  pure self

/-! ## artificial.py -/

/-- `Camera.__init__` (payloads.py 20-39) and `OpticalConstraints.__init__`
(constraints.py 27-56), with the numbers computed by the value-level model -/
def cameraNew (pixels fov : ℝ) : H ℕ := do
  let c ← PyM.lift (Camera.new pixels fov)
  let self ← alloc "Camera"
  setAttr self "pixels" (.num c.pixels)
  setAttr self "fov" (.num c.fov)
  let limits ← alloc "OpticalConstraints"
  setAttr limits "sun_hard" (.num c.limits.sun_hard)
  setAttr limits "sun_soft" (.num c.limits.sun_soft)
  setAttr limits "moon" (.num c.limits.moon)
  setAttr limits "earth" (.num c.limits.earth)
  setAttr limits "vismag" (.num c.limits.vismag)
  setAttr limits "bore" (.num c.limits.bore)
  setAttr limits "characterization" (.num c.limits.characterization)
  setAttr self "limits" (.ref limits)
  setAttr self "resolution_factor" (.num c.resolution_factor)
  pure self

/-- `Spacecraft.current_state` (artificial.py 472-478) -/
def currentState (s : ℕ) : H ℕ := do
  stateCopy (← getRef (← getRef s "propagator") "state")

/-- `Spacecraft.current_epoch` (artificial.py 480-486) -/
def currentEpoch (s : ℕ) : H ℕ := do
  epochCopy (← getRef (← currentState s) "epoch")

/-- `Spacecraft.position` (artificial.py 406-412) -/
def position (s : ℕ) : H ℕ := do
  vec3Copy (← getRef (← currentState s) "position")

/-- `Spacecraft.velocity` (artificial.py 316-322) -/
def velocity (s : ℕ) : H ℕ := do
  vec3Copy (← getRef (← getRef (← getRef s "propagator") "state") "velocity")

/-- `Spacecraft.__init__` (artificial.py 46-106).  `update_attitude` runs in its first branch
(artificial.py 236-244), because `steering` was set to `"lvlh"` a few lines before. -/
def spacecraftNew (state : ℕ) : H ℕ := do
  let self ← alloc "Spacecraft"
  let initial_state ← stateCopy state
  setAttr self "initial_state" (.ref initial_state)
  setAttr self "albedo" (.num Spacecraft.DEFAULT_ALBEDO)
  setAttr self "body_radius" (.num Spacecraft.DEFAULT_RADIUS)
  setAttr self "wfov" (.ref (← cameraNew 3072 (pyRadians 5)))
  setAttr self "nfov" (.ref (← cameraNew 3072 (pyRadians 0.125)))
  setAttr self "steering" (.str Spacecraft.LVLH)
  setAttr self "slewing" (.flag false)
  setAttr self "slew_scalar" (.num Spacecraft.DEFAULT_SLEW_SCALE)
  setAttr self "pointing_accuracy" (.num Spacecraft.DEFAULT_POINTING_ACCURACY)
  setAttr self "m_dot" (.num Spacecraft.DEFAULT_M_DOT)
  setAttr self "isp" (.num Spacecraft.DEFAULT_ISP)
  setAttr self "dry_mass" (.num Spacecraft.DEFAULT_MASS)
  setAttr self "propellant_mass" (.num Spacecraft.DEFAULT_PROP_MASS)
  let srp ← PyM.lift (pyDiv
    ((Spacecraft.DEFAULT_ALBEDO + 1) *
      (pyPi * Spacecraft.DEFAULT_RADIUS * Spacecraft.DEFAULT_RADIUS) * BASE_IN_KILO * BASE_IN_KILO)
    (Spacecraft.DEFAULT_MASS + Spacecraft.DEFAULT_PROP_MASS))
  setAttr initial_state "srp_scalar" (.num srp)
  setAttr self "propagator" (.ref (← rk4New initial_state))
  let r ← vec3Get (← position self)
  let bz := r.scaled (-1)
  let body_z ← vec3New bz.x bz.y bz.z
  setAttr self "body_z" (.ref body_z)
  let r ← vec3Get (← position self)
  let v ← vec3Get (← velocity self)
  let by' := r.cross v
  let body_y ← vec3New by'.x by'.y by'.z
  setAttr self "body_y" (.ref body_y)
  let bx := by'.cross bz
  let body_x ← vec3New bx.x bx.y bx.z
  setAttr self "body_x" (.ref body_x)
  pure self

/-! ## filtering.py -/

/-- `RelativeKalman.__init__` (filtering.py 47-90).  `dcov` and `dnoise` are the addresses of
the class attributes `DEFAULT_COVARIANCE` and `DEFAULT_NOISE` (filtering.py 13-30), created
once when the module is imported.  The argument `propagator` is stored without a copy, and so
are the two class attributes. -/
def kalmanNew (dcov dnoise epoch propagator : ℕ) : H ℕ := do
  let self ← alloc "RelativeKalman"
  setAttr self "epoch" (.ref (← epochCopy epoch))
  setAttr self "propagator" (.ref propagator)
  setAttr self "x00" (.ref (← vec6Copy (← getRef (← getRef propagator "state") "vector")))
  setAttr self "p00" (.ref dcov)
  setAttr self "q" (.ref dnoise)
  let n ← getNum propagator "n"
  let f ← PyM.lift (Hill.systemMatrix ⟨⟨⟨0⟩, ⟨0, 0, 0⟩, ⟨0, 0, 0⟩, ⟨0, 0, 0, 0, 0, 0⟩⟩, 0, n, 0⟩ 0)
  setAttr self "f" (.ref (← mat6OfValue f))
  setAttr self "range_error" (.num 0)
  setAttr self "angular_error" (.num 0)
  pure self

end

end Openspace.Mem
