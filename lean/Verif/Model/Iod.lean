import Verif.Model.Elements
import Verif.Model.Obs

/-!
# Model of `/repo/src/openspace/estimation/iod.py`
-/

namespace Openspace

noncomputable section

namespace Gauss

/-- `Gauss.NU_TOLERANCE` (iod.py 12) -/
def NU_TOLERANCE : ℝ := 1e-12

/-- `Gauss.w_of_omega` (iod.py 137-148) -/
def wOfOmega (w : ℝ) : Py ℝ := do
  let s ← pySqrt w
  let a ← pyAsin s
  let g := 2 * a
  let sg := pySin g
  pyDiv (2 * g - pySin (2 * g)) (sg * sg * sg)

/-- `Gauss.f_of_nu` (iod.py 121-135) -/
def fOfNu (n m l : ℝ) : Py ℝ := do
  let mn ← pyDiv m (n * n)
  let w ← wOfOmega (mn - l)
  pure (1 - n + mn * w)

/-- one pass through the loop of `Gauss.solve_nu` (iod.py 111-112) -/
def secantStep (m l n0 n1 : ℝ) : Py ℝ := do
  let f1 ← fOfNu n1 m l
  let f0 ← fOfNu n0 m l
  let q ← pyDiv (f1 * (n1 - n0)) (f1 - f0)
  pure (n1 - q)

/-- `Gauss.solve_nu` (iod.py 92-119) -/
def solveNu (m l : ℝ) : Nat → ℝ → ℝ → Py ℝ
  | 0, _, _ => .error .outOfFuel
  | fuel + 1, n0, n1 => do
    let n2 ← secantStep m l n0 n1
    if pyAbs (n2 - n1) < NU_TOLERANCE then pure n2 else solveNu m l fuel n1 n2

/-- the orbit plane computed by `Gauss.coes_from_positions` (iod.py 29-48) -/
structure Plane where
  ra_mag : ℝ
  rb_mag : ℝ
  ea : Vec3
  r0_mag : ℝ
  w : Vec3
  ua : ℝ
  inc : ℝ
  raan : ℝ

/-- lines 29-48 of `Gauss.coes_from_positions` (iod.py 29-48) -/
def plane (ra rb : Vec3) : Py Plane := do
  let ra_mag := ra.magnitude
  let rb_mag := rb.magnitude
  let ea ← ra.normalized
  let r0 := rb.minus (ea.scaled (rb.dot ea))
  let r0_mag := r0.magnitude
  let e0 ← r0.normalized
  let w := ea.cross e0
  let ua := pyAtan2 ra.z (-ra.x * w.y + ra.y * w.x)
  let inc := wrapNeg (pyAtan2 (sqrtNN (w.x * w.x + w.y * w.y)) w.z)
  let raan := wrapNeg (pyAtan2 w.x (-w.y))
  pure ⟨ra_mag, rb_mag, ea, r0_mag, w, ua, inc, raan⟩

/-- the sector-to-triangle ratio computed by `Gauss.coes_from_positions` (iod.py 53-62) -/
def ratio (fuel : Nat) (ra rb : Vec3) (ra_mag rb_mag tau : ℝ) : Py ℝ := do
  let base := 2 * (ra_mag * rb_mag + ra.dot rb)
  let pw ← pyPowNeg base 1.5
  let m := tau * tau * pw
  let sb ← pySqrt base
  let lq ← pyDiv (ra_mag + rb_mag) (2 * sb)
  let l := lq - 0.5
  let mq ← pyDiv m (l + 5 / 6)
  let sq ← pySqrt (1 + (44 / 9) * mq)
  let n0 := 12 / 22 + 10 / 22 * sq
  let n1 := n0 + 0.1
  let n2 := n0
  solveNu m l fuel n1 n2

/-- lines 64-88 of `Gauss.coes_from_positions`: shape, perigee and mean anomaly from the plane
and the ratio (iod.py 64-90) -/
def elementsFromRatio (epoch : Epoch) (pl : Plane) (rb : Vec3) (n tau : ℝ) : Py ClassicalElements := do
  let base ← pyDiv (pl.ra_mag * pl.r0_mag * n) tau
  let p := base * base
  let pa ← pyDiv p pl.ra_mag
  let ecosva := pa - 1
  let pb ← pyDiv p pl.rb_mag
  let ecosvb := pb - 1
  let cosd ← pyDiv (rb.dot pl.ea) pl.rb_mag
  let sind ← pyDiv pl.r0_mag pl.rb_mag
  let esinva ← pyDiv (ecosva * cosd - ecosvb) sind
  let ta := wrapNeg (pyAtan2 esinva ecosva)
  let e ← pyDiv ecosva (pyCos ta)
  let aop := wrapNeg (pl.ua - ta)
  let sma ← pyDiv p (1 - e * e)
  let se ← pySqrt (1 - e * e)
  let e_anom := pyAtan2 (se * pySin ta) (pyCos ta + e)
  let ma := e_anom - e * pySin e_anom
  pure ⟨epoch.copy, sma, e, pl.inc, pl.raan, aop, ma⟩

/-- `Gauss.coes_from_positions` after the two positions and epochs have been read
(iod.py 27-90) -/
def coesFromVectors (fuel : Nat) (ra rb : Vec3) (t1 t2 : Epoch) : Py ClassicalElements := do
  let pl ← plane ra rb
  let tau := sqrtNN Earth.MU * (t2.value - t1.value) * SECONDS_IN_DAY
  let n ← ratio fuel ra rb pl.ra_mag pl.rb_mag tau
  elementsFromRatio t1 pl rb n tau

/-- `Gauss.coes_from_positions` (iod.py 14-90) -/
def coesFromPositions (fuel : Nat) (ob1 ob2 : Observation) : Py ClassicalElements := do
  let ra ← ob1.ijkPosition
  let rb ← ob2.ijkPosition
  coesFromVectors fuel ra rb ob1.epoch ob2.epoch

end Gauss

end

end Openspace
