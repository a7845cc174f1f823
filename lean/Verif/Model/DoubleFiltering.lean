import Verif.Model.DoubleForces
import Verif.Model.DoubleRelative
import Verif.Model.DoubleStates
import Verif.Model.Filtering

/-!
# The navigation filter in double precision

`Model/Filtering`, and the matrix operations of `Model/Linalg` it uses, with every operation rounded to the nearest
double.  The functions of the C library are given as arbitrary functions.  As in `Model/Double` the exponent range is
not bounded and zeros have no sign.  The objects are those of `Model/Filtering`: their numbers are the doubles stored.
-/

namespace Openspace.F64

noncomputable section

/-- `Vector6D.plus` (linalg.py 86-101) -/
def plus6 (a b : Vec6) : Vec6 :=
  ⟨rnd (a.x + b.x), rnd (a.y + b.y), rnd (a.z + b.z), rnd (a.vx + b.vx), rnd (a.vy + b.vy), rnd (a.vz + b.vz)⟩

/-- `Vector6D.minus` (linalg.py 103-118) -/
def minus6 (a b : Vec6) : Vec6 :=
  ⟨rnd (a.x - b.x), rnd (a.y - b.y), rnd (a.z - b.z), rnd (a.vx - b.vx), rnd (a.vy - b.vy), rnd (a.vz - b.vz)⟩

/-- `Matrix3D.scaled` (linalg.py 390-398) -/
def mat3Scaled (m : Mat3) (k : ℝ) : Mat3 := ⟨scaled m.row1 k, scaled m.row2 k, scaled m.row3 k⟩

/-- `Matrix3D.plus` (linalg.py 412-420) -/
def mat3Plus (m k : Mat3) : Mat3 := ⟨plus m.row1 k.row1, plus m.row2 k.row2, plus m.row3 k.row3⟩

/-- `Matrix3D.determinant` (linalg.py 422-435) -/
def determinant (m : Mat3) : ℝ :=
  rnd (rnd (rnd (rnd (rnd (rnd (rnd (m.row1.x * m.row2.y) * m.row3.z)
    + rnd (rnd (m.row1.y * m.row2.z) * m.row3.x))
    + rnd (rnd (m.row1.z * m.row2.x) * m.row3.y))
    - rnd (rnd (m.row1.z * m.row2.y) * m.row3.x))
    - rnd (rnd (m.row1.y * m.row2.x) * m.row3.z))
    - rnd (rnd (m.row1.x * m.row2.z) * m.row3.y))

/-- `Matrix3D.cofactor` (linalg.py 437-459) -/
def cofactor (m : Mat3) : Mat3 :=
  ⟨⟨rnd (rnd (m.row2.y * m.row3.z) - rnd (m.row2.z * m.row3.y)),
    -rnd (rnd (m.row2.x * m.row3.z) - rnd (m.row3.x * m.row2.z)),
    rnd (rnd (m.row2.x * m.row3.y) - rnd (m.row3.x * m.row2.y))⟩,
   ⟨-rnd (rnd (m.row1.y * m.row3.z) - rnd (m.row3.y * m.row1.z)),
    rnd (rnd (m.row1.x * m.row3.z) - rnd (m.row1.z * m.row3.x)),
    -rnd (rnd (m.row1.x * m.row3.y) - rnd (m.row1.y * m.row3.x))⟩,
   ⟨rnd (rnd (m.row1.y * m.row2.z) - rnd (m.row1.z * m.row2.y)),
    -rnd (rnd (m.row1.x * m.row2.z) - rnd (m.row2.x * m.row1.z)),
    rnd (rnd (m.row1.x * m.row2.y) - rnd (m.row1.y * m.row2.x))⟩⟩

/-- `Matrix3D.inverse` (linalg.py 469-475), with `Matrix3D.adjugate` (linalg.py 461-467) -/
def inverse (m : Mat3) : Py Mat3 := do
  let k ← div 1 (determinant m)
  pure (mat3Scaled (cofactor m).transpose k)

/-- `Matrix3D.multiply_matrix3by6` (linalg.py 477-510) -/
def mat3Mul36 (m : Mat3) (k : Mat36) : Mat36 :=
  let row (r : Vec3) : Vec6 :=
    ⟨dot r k.column1, dot r k.column2, dot r k.column3, dot r k.column4, dot r k.column5, dot r k.column6⟩
  ⟨row m.row1, row m.row2, row m.row3⟩

/-- `Matrix3by6.multiply_vector` (linalg.py 576-584) -/
def mat36MulVec (m : Mat36) (v : Vec6) : Vec3 := ⟨dot6 m.row1 v, dot6 m.row2 v, dot6 m.row3 v⟩

/-- `Matrix3by6.multiply_matrix_6by3` (linalg.py 601-625) -/
def mat36Mul63 (m : Mat36) (k : Mat63) : Mat3 :=
  let row (r : Vec6) : Vec3 := ⟨dot6 r k.column1, dot6 r k.column2, dot6 r k.column3⟩
  ⟨row m.row1, row m.row2, row m.row3⟩

/-- `Matrix6by3.multiply` (linalg.py 703-742) -/
def mat63Mul3 (m : Mat63) (k : Mat3) : Mat63 :=
  let row (r : Vec3) : Vec3 := ⟨dot r k.column1, dot r k.column2, dot r k.column3⟩
  ⟨row m.row1, row m.row2, row m.row3, row m.row4, row m.row5, row m.row6⟩

/-- `Matrix6by3.multiply_vector` (linalg.py 744-759) -/
def mat63MulVec (m : Mat63) (v : Vec3) : Vec6 :=
  ⟨dot m.row1 v, dot m.row2 v, dot m.row3 v, dot m.row4 v, dot m.row5 v, dot m.row6 v⟩

/-- `Matrix6by3.multiply_matrix3by6` (linalg.py 761-818) -/
def mat63Mul36 (m : Mat63) (k : Mat36) : Mat6 :=
  let row (r : Vec3) : Vec6 :=
    ⟨dot r k.column1, dot r k.column2, dot r k.column3, dot r k.column4, dot r k.column5, dot r k.column6⟩
  ⟨row m.row1, row m.row2, row m.row3, row m.row4, row m.row5, row m.row6⟩

/-- `Matrix6D.multiply_matrix_6by3` (linalg.py 996-1035) -/
def mat6Mul63 (m : Mat6) (k : Mat63) : Mat63 :=
  let row (r : Vec6) : Vec3 := ⟨dot6 r k.column1, dot6 r k.column2, dot6 r k.column3⟩
  ⟨row m.row1, row m.row2, row m.row3, row m.row4, row m.row5, row m.row6⟩

/-- `Matrix6D.multiply_matrix` (linalg.py 1037-1094) -/
def mat6Mul (m k : Mat6) : Mat6 :=
  let row (r : Vec6) : Vec6 :=
    ⟨dot6 r k.column1, dot6 r k.column2, dot6 r k.column3, dot6 r k.column4, dot6 r k.column5, dot6 r k.column6⟩
  ⟨row m.row1, row m.row2, row m.row3, row m.row4, row m.row5, row m.row6⟩

/-- `Matrix6D.plus` (linalg.py 1096-1111) -/
def mat6Plus (m k : Mat6) : Mat6 :=
  ⟨plus6 m.row1 k.row1, plus6 m.row2 k.row2, plus6 m.row3 k.row3, plus6 m.row4 k.row4, plus6 m.row5 k.row5,
    plus6 m.row6 k.row6⟩

/-- `Matrix6D.minus` (linalg.py 1113-1128) -/
def mat6Minus (m k : Mat6) : Mat6 :=
  ⟨minus6 m.row1 k.row1, minus6 m.row2 k.row2, minus6 m.row3 k.row3, minus6 m.row4 k.row4, minus6 m.row5 k.row5,
    minus6 m.row6 k.row6⟩

/-- `SpaceObservation.__init__` (obs.py 24-57) -/
def spaceObservation (lib : Libm) (observer_state : GCRF) (observed_direction : Vec3) (r_error ang_error : ℝ) :
    SpaceObservation :=
  let spherical := fromCartesian lib observed_direction
  ⟨observer_state.copy, observed_direction.copy, spherical.radius, spherical.right_ascension,
    spherical.declination, r_error, ang_error⟩

namespace Kalman

open RelativeKalman (attr H HT I)

/-- `RelativeKalman.__init__` (filtering.py 45-90), with `DEFAULT_COVARIANCE` and `DEFAULT_NOISE` (filtering.py 13-30) -/
def new (lib : Libm) (epoch : Epoch) (propagator : Hill) : Py RelativeKalman := do
  let f ← hillMatrix lib propagator.n 0
  pure
    { epoch := epoch.copy
      propagator := propagator
      x00 := propagator.state.vector.copy
      x10 := none
      p00 := RelativeKalman.diag6 0.5 0.5 0.5 (rnd 5e-5) (rnd 5e-5) (rnd 5e-5)
      p10 := none
      q := RelativeKalman.diag6 (rnd 1e-16) (rnd 1e-16) (rnd 1e-16) (rnd 1e-16) (rnd 1e-16) (rnd 1e-16)
      f := f
      k := none
      z := none
      range_error := 0
      angular_error := 0
      r := none }

/-- `RelativeKalman.predict_covariance` (filtering.py 92-94) -/
def predictCovariance : PyM RelativeKalman Unit :=
  PyM.modify fun s => { s with p10 := some (mat6Plus (mat6Mul s.f (mat6Mul s.p00 s.f.transpose)) s.q) }

/-- `RelativeKalman.gain` (filtering.py 96-99) -/
def gain : PyM RelativeKalman Unit := do
  let s ← PyM.get
  let p10 ← PyM.lift (attr s.p10)
  let hph := mat36Mul63 H (mat6Mul63 p10 HT)
  let r ← PyM.lift (attr s.r)
  let inv ← PyM.lift (inverse (mat3Plus hph r))
  PyM.modify fun s => { s with k := some (mat6Mul63 p10 (mat63Mul3 HT inv)) }

/-- `RelativeKalman.predict_state` (filtering.py 101-108) -/
def predictState (lib : Libm) (dt : ℝ) : PyM RelativeKalman Unit := do
  let s ← PyM.get
  let f ← PyM.lift (hillMatrix lib s.propagator.n dt)
  PyM.modify fun s => { s with f := f, x10 := some (mulVec6 f s.x00) }

/-- `RelativeKalman.update_state` (filtering.py 110-113) -/
def updateState : PyM RelativeKalman Unit := do
  let s ← PyM.get
  let x10 ← PyM.lift (attr s.x10)
  let k ← PyM.lift (attr s.k)
  let z ← PyM.lift (attr s.z)
  let x00 := plus6 x10 (mat63MulVec k (minus z (mat36MulVec H x10)))
  PyM.modify fun s =>
    { s with x00 := x00, propagator := { s.propagator with state := State.fromStateVector x00 } }

/-- `RelativeKalman.update_covariance` (filtering.py 115-119) -/
def updateCovariance : PyM RelativeKalman Unit := do
  let s ← PyM.get
  let k ← PyM.lift (attr s.k)
  let r ← PyM.lift (attr s.r)
  let p10 ← PyM.lift (attr s.p10)
  let m1 := mat6Minus I (mat63Mul36 k H)
  let m2 := mat63Mul36 k (mat3Mul36 r k.transpose)
  PyM.modify fun s => { s with p00 := mat6Plus (mat6Mul m1 (mat6Mul p10 m1.transpose)) m2 }

/-- `RelativeKalman.predict` (filtering.py 121-124) -/
def predict (lib : Libm) (dt : ℝ) : PyM RelativeKalman Unit := do
  predictState lib dt
  predictCovariance

/-- `RelativeKalman.update` (filtering.py 126-130) -/
def update : PyM RelativeKalman Unit := do
  gain
  updateState
  updateCovariance

/-- the measurement in the Hill frame computed by `RelativeKalman.process` (filtering.py 140-143) -/
def hillMeasurement (lib : Libm) (ob : SpaceObservation) : Py Vec3 := do
  let h ← F64.gcrfToHcw lib ob.observer_state.position ob.observer_state.velocity
    (plus ob.observer_state.position ob.observed_direction) ob.observer_state.velocity
  pure h.1

/-- the Hill-frame errors computed by `RelativeKalman.process` (filtering.py 145-150) -/
def hillErrors (lib : Libm) (ob : SpaceObservation) : Py Vec3 := do
  let spherical_ob : SphericalPosition :=
    ⟨rnd (ob.range + ob.range_error), rnd (ob.right_ascension + ob.angular_error),
      rnd (ob.declination + ob.angular_error)⟩
  let errors := minus (toCartesian lib spherical_ob) ob.observed_direction
  let h ← F64.gcrfToHcw lib ob.observer_state.position ob.observer_state.velocity
    (plus ob.observer_state.position errors) ob.observer_state.velocity
  pure h.1

/-- the measurement covariance computed by `RelativeKalman.process` (filtering.py 152-168) -/
def measurementCovariance (e : Vec3) : Mat3 :=
  ⟨⟨rnd (e.x * e.x), 0, 0⟩, ⟨0, rnd (e.y * e.y), 0⟩, ⟨0, 0, rnd (e.z * e.z)⟩⟩

/-- `RelativeKalman.process` (filtering.py 132-172) -/
def process (lib : Libm) (ob : SpaceObservation) : PyM RelativeKalman Unit := do
  let s ← PyM.get
  let dt := rnd (rnd (ob.observer_state.epoch.value - s.epoch.value) * SECONDS_IN_DAY)
  PyM.modify fun s => { s with epoch := ob.observer_state.epoch.copy }
  let z ← PyM.lift (hillMeasurement lib ob)
  PyM.modify fun s => { s with z := some z }
  let e ← PyM.lift (hillErrors lib ob)
  PyM.modify fun s => { s with r := some (measurementCovariance e) }
  PyM.modify fun s => { s with range_error := ob.range_error, angular_error := ob.angular_error }
  predict lib dt
  update

end Kalman

end

end Openspace.F64
