import Verif.Model.Relative
import Verif.Model.Obs

/-!
# Model of `/repo/src/openspace/estimation/filtering.py`
-/

namespace Openspace

noncomputable section

/-- `RelativeKalman` (filtering.py 10-90).  Attributes that are declared but not assigned by
`__init__` (`x10`, `p10`, `k`, `z`, `r`) are `none` until assigned; reading them while `none`
raises `AttributeError`.  The Hill propagator is owned by the filter (the only construction in
the package, artificial.py 176-178, passes a fresh one). -/
@[ext] structure RelativeKalman where
  epoch : Epoch
  propagator : Hill
  x00 : Vec6
  x10 : Option Vec6
  p00 : Mat6
  p10 : Option Mat6
  q : Mat6
  f : Mat6
  k : Option Mat63
  z : Option Vec3
  range_error : ℝ
  angular_error : ℝ
  r : Option Mat3

namespace RelativeKalman

/-- a diagonal `Matrix6D` literal -/
def diag6 (a b c d e f : ℝ) : Mat6 :=
  ⟨⟨a, 0, 0, 0, 0, 0⟩, ⟨0, b, 0, 0, 0, 0⟩, ⟨0, 0, c, 0, 0, 0⟩,
   ⟨0, 0, 0, d, 0, 0⟩, ⟨0, 0, 0, 0, e, 0⟩, ⟨0, 0, 0, 0, 0, f⟩⟩

/-- `RelativeKalman.DEFAULT_COVARIANCE` (filtering.py 13-20) -/
def DEFAULT_COVARIANCE : Mat6 := diag6 0.5 0.5 0.5 5e-5 5e-5 5e-5

/-- `RelativeKalman.DEFAULT_NOISE` (filtering.py 23-30) -/
def DEFAULT_NOISE : Mat6 := diag6 1e-16 1e-16 1e-16 1e-16 1e-16 1e-16

/-- `RelativeKalman.H` (filtering.py 33-37) -/
def H : Mat36 := ⟨⟨1, 0, 0, 0, 0, 0⟩, ⟨0, 1, 0, 0, 0, 0⟩, ⟨0, 0, 1, 0, 0, 0⟩⟩

/-- `RelativeKalman.HT` (filtering.py 40) -/
def HT : Mat63 := H.transpose

/-- `RelativeKalman.I` (filtering.py 43) -/
def I : Mat6 := Mat6.identity

/-- `RelativeKalman.__init__` (filtering.py 45-90) -/
def new (epoch : Epoch) (propagator : Hill) : Py RelativeKalman := do
  let f ← propagator.systemMatrix 0
  pure
    { epoch := epoch.copy
      propagator := propagator
      x00 := propagator.state.vector.copy
      x10 := none
      p00 := DEFAULT_COVARIANCE
      p10 := none
      q := DEFAULT_NOISE
      f := f
      k := none
      z := none
      range_error := 0
      angular_error := 0
      r := none }

/-- reading an attribute that may be unset -/
def attr {α : Type} (x : Option α) : Py α :=
  match x with
  | none => .error .attributeError
  | some a => .ok a

/-- `RelativeKalman.predict_covariance` (filtering.py 92-94) -/
def predictCovariance : PyM RelativeKalman Unit :=
  PyM.modify fun s => { s with p10 := some ((s.f.mul (s.p00.mul s.f.transpose)).plus s.q) }

/-- `RelativeKalman.gain` (filtering.py 96-99) -/
def gain : PyM RelativeKalman Unit := do
  let s ← PyM.get
  let p10 ← PyM.lift (attr s.p10)
  let hph := H.mul63 (p10.mul63 HT)
  let r ← PyM.lift (attr s.r)
  let inv ← PyM.lift (hph.plus r).inverse
  PyM.modify fun s => { s with k := some (p10.mul63 (HT.mul3 inv)) }

/-- `RelativeKalman.predict_state` (filtering.py 101-108) -/
def predictState (dt : ℝ) : PyM RelativeKalman Unit := do
  let s ← PyM.get
  let f ← PyM.lift (s.propagator.systemMatrix dt)
  PyM.modify fun s => { s with f := f, x10 := some (f.mulVec s.x00) }

/-- `RelativeKalman.update_state` (filtering.py 110-113) -/
def updateState : PyM RelativeKalman Unit := do
  let s ← PyM.get
  let x10 ← PyM.lift (attr s.x10)
  let k ← PyM.lift (attr s.k)
  let z ← PyM.lift (attr s.z)
  let x00 := x10.plus (k.mulVec (z.minus (H.mulVec x10)))
  PyM.modify fun s =>
    { s with x00 := x00, propagator := { s.propagator with state := State.fromStateVector x00 } }

/-- `RelativeKalman.update_covariance` (filtering.py 115-119) -/
def updateCovariance : PyM RelativeKalman Unit := do
  let s ← PyM.get
  let k ← PyM.lift (attr s.k)
  let r ← PyM.lift (attr s.r)
  let p10 ← PyM.lift (attr s.p10)
  let m1 := I.minus (k.mul36 H)
  let m2 := k.mul36 (r.mul36 k.transpose)
  PyM.modify fun s => { s with p00 := (m1.mul (p10.mul m1.transpose)).plus m2 }

/-- `RelativeKalman.predict` (filtering.py 121-124) -/
def predict (dt : ℝ) : PyM RelativeKalman Unit := do
  predictState dt
  predictCovariance

/-- `RelativeKalman.update` (filtering.py 126-130) -/
def update : PyM RelativeKalman Unit := do
  gain
  updateState
  updateCovariance

/-- the measurement in the Hill frame computed by `RelativeKalman.process` (filtering.py 140-143) -/
def hillMeasurement (ob : SpaceObservation) : Py Vec3 := do
  let gcrf_ob := GCRF.new ob.observer_state.epoch
    (ob.observer_state.position.plus ob.observed_direction) ob.observer_state.velocity
  let h ← gcrfToHcw ob.observer_state gcrf_ob
  pure h.position

/-- the Hill-frame errors computed by `RelativeKalman.process` (filtering.py 145-150) -/
def hillErrors (ob : SpaceObservation) : Py Vec3 := do
  let spherical_ob : SphericalPosition :=
    ⟨ob.range + ob.range_error, ob.right_ascension + ob.angular_error,
      ob.declination + ob.angular_error⟩
  let errors := spherical_ob.toCartesian.minus ob.observed_direction
  let gcrf_errors := GCRF.new ob.observer_state.epoch
    (ob.observer_state.position.plus errors) ob.observer_state.velocity
  let h ← gcrfToHcw ob.observer_state gcrf_errors
  pure h.position

/-- the measurement covariance computed by `RelativeKalman.process` (filtering.py 152-168) -/
def measurementCovariance (e : Vec3) : Mat3 :=
  ⟨⟨e.x * e.x, 0, 0⟩, ⟨0, e.y * e.y, 0⟩, ⟨0, 0, e.z * e.z⟩⟩

/-- `RelativeKalman.process` (filtering.py 132-172) -/
def process (ob : SpaceObservation) : PyM RelativeKalman Unit := do
  let s ← PyM.get
  let dt := (ob.observer_state.epoch.value - s.epoch.value) * SECONDS_IN_DAY
  PyM.modify fun s => { s with epoch := ob.observer_state.epoch.copy }
  let z ← PyM.lift (hillMeasurement ob)
  PyM.modify fun s => { s with z := some z }
  let e ← PyM.lift (hillErrors ob)
  PyM.modify fun s => { s with r := some (measurementCovariance e) }
  PyM.modify fun s => { s with range_error := ob.range_error, angular_error := ob.angular_error }
  predict dt
  update

end RelativeKalman

end

end Openspace
