import Verif.Model.DoubleElements
import Verif.Model.DoublePositions
import Verif.Model.DoubleForces
import Verif.Model.Iod

/-!
# The iteration of Gauss's method in double precision

Conventions as in `Model/DoubleEarth`.
-/

namespace Openspace.F64

noncomputable section

/-- `Gauss.NU_TOLERANCE` (iod.py 12) -/
def nuTolerance : ℝ := rnd 1e-12

/-- `Gauss.w_of_omega` (iod.py 137-148) -/
def wOfOmega (lib : Libm) (w : ℝ) : Py ℝ := do
  let s ← sqrt w
  let a ← asin lib s
  let g := rnd (2 * a)
  let sg := lib.sin g
  let t := rnd (2 * g)
  div (rnd (t - lib.sin t)) (rnd (rnd (sg * sg) * sg))

/-- `Gauss.f_of_nu` (iod.py 121-135) -/
def fOfNu (lib : Libm) (n m l : ℝ) : Py ℝ := do
  let mn ← div m (rnd (n * n))
  let w ← wOfOmega lib (rnd (mn - l))
  pure (rnd (rnd (1 - n) + rnd (mn * w)))

/-- one pass through the loop of `Gauss.solve_nu` (iod.py 111-112) -/
def secantStep (lib : Libm) (m l n0 n1 : ℝ) : Py ℝ := do
  let f1 ← fOfNu lib n1 m l
  let f0 ← fOfNu lib n0 m l
  let q ← div (rnd (f1 * rnd (n1 - n0))) (rnd (f1 - f0))
  pure (rnd (n1 - q))

/-- `Gauss.solve_nu` (iod.py 92-119) -/
def solveNu (lib : Libm) (m l : ℝ) : Nat → ℝ → ℝ → Py ℝ
  | 0, _, _ => .error .outOfFuel
  | fuel + 1, n0, n1 => do
    let n2 ← secantStep lib m l n0 n1
    if |rnd (n2 - n1)| < nuTolerance then pure n2 else solveNu lib m l fuel n1 n2

/-- `base ** -1.5` (iod.py 55): raises for zero, a Python `complex` for a negative base -/
def powNeg15 (lib : Libm) (x : ℝ) : Py ℝ :=
  if x = 0 then .error .zeroDivision else if x < 0 then .error .complexValue else .ok (lib.pow x (-1.5))

/-- `tau` of `Gauss.coes_from_positions` (iod.py 51) from the values of the epochs -/
def gaussTau (t1 t2 : ℝ) : ℝ := rnd (rnd (rnd (sqrtNN mu) * rnd (t2 - t1)) * 86400)

/-- `n0` of `Gauss.coes_from_positions` (iod.py 59) -/
def gaussStart (m l : ℝ) : Py ℝ := do
  let mq ← div m (rnd (l + rnd (5 / 6)))
  let sq ← sqrt (rnd (1 + rnd (rnd (44 / 9) * mq)))
  pure (rnd (rnd (12 / 22) + rnd (rnd (10 / 22) * sq)))

/-- the auxiliary numbers `m` and `l` of `Gauss.coes_from_positions` (iod.py 54-56) -/
def gaussNumbers (lib : Libm) (ra rb : Vec3) (ra_mag rb_mag tau : ℝ) : Py (ℝ × ℝ) := do
  let base := rnd (2 * rnd (rnd (ra_mag * rb_mag) + dot ra rb))
  let pw ← powNeg15 lib base
  let m := rnd (rnd (tau * tau) * pw)
  let sb ← sqrt base
  let lq ← div (rnd (ra_mag + rb_mag)) (rnd (2 * sb))
  pure (m, rnd (lq - 0.5))

/-- the sector-to-triangle ratio computed by `Gauss.coes_from_positions` (iod.py 53-62) -/
def gaussRatio (lib : Libm) (fuel : Nat) (ra rb : Vec3) (ra_mag rb_mag tau : ℝ) : Py ℝ := do
  let ml ← gaussNumbers lib ra rb ra_mag rb_mag tau
  let n0 ← gaussStart ml.1 ml.2
  let n1 := rnd (n0 + rnd 0.1)
  let n2 := n0
  solveNu lib ml.1 ml.2 fuel n1 n2

/-- lines 29-48 of `Gauss.coes_from_positions` (iod.py 29-48) -/
def gaussPlane (lib : Libm) (ra rb : Vec3) : Py Gauss.Plane := do
  let ra_mag := magnitude ra
  let rb_mag := magnitude rb
  let ea ← normalized ra
  let r0 := minus rb (scaled ea (dot rb ea))
  let r0_mag := magnitude r0
  let e0 ← normalized r0
  let w := cross ea e0
  let ua := lib.atan2 ra.z (rnd (rnd (-ra.x * w.y) + rnd (ra.y * w.x)))
  let inc := wrapNeg (lib.atan2 (rnd (sqrtNN (rnd (rnd (w.x * w.x) + rnd (w.y * w.y))))) w.z)
  let raan := wrapNeg (lib.atan2 w.x (-w.y))
  pure ⟨ra_mag, rb_mag, ea, r0_mag, w, ua, inc, raan⟩

/-- lines 64-88 of `Gauss.coes_from_positions` (iod.py 64-90) -/
def gaussElements (lib : Libm) (epoch : Epoch) (pl : Gauss.Plane) (rb : Vec3) (n tau : ℝ) : Py ClassicalElements := do
  let base ← div (rnd (rnd (pl.ra_mag * pl.r0_mag) * n)) tau
  let p := rnd (base * base)
  let pa ← div p pl.ra_mag
  let ecosva := rnd (pa - 1)
  let pb ← div p pl.rb_mag
  let ecosvb := rnd (pb - 1)
  let cosd ← div (dot rb pl.ea) pl.rb_mag
  let sind ← div pl.r0_mag pl.rb_mag
  let esinva ← div (rnd (rnd (ecosva * cosd) - ecosvb)) sind
  let ta := wrapNeg (lib.atan2 esinva ecosva)
  let e ← div ecosva (lib.cos ta)
  let aop := wrapNeg (rnd (pl.ua - ta))
  let sma ← div p (rnd (1 - rnd (e * e)))
  let se ← sqrt (rnd (1 - rnd (e * e)))
  let e_anom := lib.atan2 (rnd (se * lib.sin ta)) (rnd (lib.cos ta + e))
  let ma := rnd (e_anom - rnd (e * lib.sin e_anom))
  pure ⟨epoch.copy, sma, e, pl.inc, pl.raan, aop, ma⟩

/-- `Gauss.coes_from_positions` after the two positions and epochs have been read (iod.py 27-90) -/
def gaussCoes (lib : Libm) (fuel : Nat) (ra rb : Vec3) (t1 t2 : Epoch) : Py ClassicalElements := do
  let pl ← gaussPlane lib ra rb
  let tau := gaussTau t1.value t2.value
  let n ← gaussRatio lib fuel ra rb pl.ra_mag pl.rb_mag tau
  gaussElements lib t1 pl rb n tau

end

end Openspace.F64
