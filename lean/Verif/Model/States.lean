import Verif.Model.Positions

/-!
# Model of `/repo/src/openspace/coordinates/states.py`
-/

namespace Openspace

noncomputable section

/-- `State`, and its subclasses `ITRF`, `HCW` and `IJK` which add no attributes
(states.py 12-33, 48-59, 75-86, 285-296) -/
@[ext] structure State where
  epoch : Epoch
  position : Vec3
  velocity : Vec3
  vector : Vec6

/-- `State.__init__` (states.py 13-33) -/
def State.new (epoch : Epoch) (r v : Vec3) : State :=
  ⟨epoch.copy, r.copy, v.copy, Vec6.fromPosVel r.copy v.copy⟩

/-- `State.copy` for `ITRF`, `HCW`, `IJK` (states.py 35-37) -/
def State.copy (s : State) : State := State.new s.epoch s.position s.velocity

/-- `ITRF.from_fixed` (states.py 61-72) -/
def State.fromFixed (epoch : Epoch) (r : Vec3) : State := State.new epoch r ⟨0, 0, 0⟩

/-- `HCW.from_state_vector` (states.py 88-101) -/
def State.fromStateVector (v : Vec6) : State :=
  State.new ⟨0⟩ ⟨v.x, v.y, v.z⟩ ⟨v.vx, v.vy, v.vz⟩

/-- `GCRF` (states.py 118-138) -/
@[ext] structure GCRF extends State where
  thrust : Vec3
  srp_scalar : ℝ
  use_perturbations : Bool

namespace GCRF

/-- `GCRF.__init__` (states.py 119-138) -/
def new (epoch : Epoch) (r v : Vec3) : GCRF :=
  { toState := State.new epoch r v
    thrust := ⟨0, 0, 0⟩
    srp_scalar := 0
    use_perturbations := true }

/-- `State.copy` called on a `GCRF`: `type(self)(self.epoch, self.position, self.velocity)`
(states.py 35-37) -/
def copy (s : GCRF) : GCRF := new s.epoch s.position s.velocity

end GCRF

/-- `HCW.frame_matrix` (states.py 103-115) -/
def frameMatrix (origin : GCRF) : Py Mat3 := do
  let r ← origin.position.normalized
  let c ← (origin.position.cross origin.velocity).normalized
  let i := c.cross r
  pure ⟨r, i, c⟩

/-- the accumulators of the loop of `GCRF.acceleration_from_gravity` (states.py 153-155) -/
@[ext] structure Partials where
  r : ℝ
  phi : ℝ
  lamb : ℝ

/-- the body of the inner loop of `GCRF.acceleration_from_gravity` (states.py 168-176) -/
def gravityTerm (p : List (List ℝ)) (ra dec r_exponent : ℝ) (n : Nat) (acc : Partials) (m : Nat) :
    Py Partials := do
  let clam := pyCos (ofNat m * ra)
  let slam := pySin (ofNat m * ra)
  let pnm ← pyIndex2 p n m
  let cnm ← pyIndex2 Earth.C n m
  let snm ← pyIndex2 Earth.S n m
  let pnm1 ← pyIndex2 p n (m + 1)
  pure ⟨acc.r + r_exponent * (ofNat n + 1) * pnm * (cnm * clam + snm * slam),
    acc.phi + r_exponent * (pnm1 - ofNat m * pyTan dec * pnm) * (cnm * clam + snm * slam),
    acc.lamb + r_exponent * ofNat m * pnm * (snm * clam - cnm * slam)⟩

/-- the two nested loops `n = 2 .. DEGREE_AND_ORDER - 1`, `m = 0 .. n` of
`GCRF.acceleration_from_gravity` (states.py 164-180) -/
def gravitySums (p : List (List ℝ)) (ra dec r_over_r : ℝ) : Py Partials :=
  (List.range' 2 (Earth.DEGREE_AND_ORDER - 2)).foldlM (fun acc n =>
    (List.range (n + 1)).foldlM (gravityTerm p ra dec (pyPowNat r_over_r n) n) acc) ⟨0, 0, 0⟩

/-- the body-fixed vector computed by `GCRF.acceleration_from_gravity` from the ITRF position
and from the length of the GCRF position (states.py 147-193) -/
def gravityItrf (ecef : Vec3) (posMag : ℝ) : Py Vec3 := do
  let sphr := SphericalPosition.fromCartesian ecef
  let p := legendreP sphr.declination
  let recip_r ← pyDiv 1 posMag
  let mu_over_r := Earth.MU * recip_r
  let r_over_r := Earth.RADIUS * recip_r
  let recip_root ← pyDiv 1 (sqrtNN (ecef.x * ecef.x + ecef.y * ecef.y))
  let rz_over_root := ecef.z * recip_r * recip_r * recip_root
  let s ← gravitySums p sphr.right_ascension sphr.declination r_over_r
  let partial_r := s.r * (-recip_r * mu_over_r)
  let partial_phi := s.phi * mu_over_r
  let partial_lamb := s.lamb * mu_over_r
  let root ← pyDiv 1 recip_root
  pure
    ⟨(recip_r * partial_r - rz_over_root * partial_phi) * ecef.x
        - (recip_root * recip_root * partial_lamb) * ecef.y,
     (recip_r * partial_r - rz_over_root * partial_phi) * ecef.y
        + (recip_root * recip_root * partial_lamb) * ecef.x,
     recip_r * partial_r * ecef.z + root * recip_r * recip_r * partial_phi⟩

namespace GCRF

/-- `GCRF.acceleration_from_gravity` (states.py 140-195) -/
def accelerationFromGravity (s : GCRF) : Py Vec3 := do
  let ecef ← PositionConvert.gcrfToItrf s.position s.epoch
  let a ← gravityItrf ecef s.position.magnitude
  PositionConvert.itrfToGcrf a s.epoch

/-- `GCRF.acceleration_from_earth` (states.py 197-205) -/
def accelerationFromEarth (s : GCRF) : Py Vec3 := do
  let r_mag := s.position.magnitude
  let k ← pyDiv (-Earth.MU) (r_mag * r_mag * r_mag)
  pure (s.position.scaled k)

/-- the common body of `acceleration_from_moon` and `acceleration_from_sun`
(states.py 214-219 and 228-233) -/
def thirdBody (s pos : Vec3) (mu : ℝ) : Py Vec3 := do
  let r := s.minus pos
  let r_mag := r.magnitude
  let s_mag := s.magnitude
  let k1 ← pyDiv 1 (r_mag * r_mag * r_mag)
  let k2 ← pyDiv 1 (s_mag * s_mag * s_mag)
  pure (((r.scaled k1).minus (s.scaled k2)).scaled mu)

/-- `GCRF.acceleration_from_moon` (states.py 207-219) -/
def accelerationFromMoon (s : GCRF) : Py Vec3 := do
  let m ← Moon.getPosition s.epoch
  thirdBody m s.position Moon.MU

/-- `GCRF.acceleration_from_sun` (states.py 221-233) -/
def accelerationFromSun (s : GCRF) : Py Vec3 :=
  thirdBody (Sun.getPosition s.epoch) s.position Sun.MU

/-- `GCRF.sun_vector` (states.py 268-274) -/
def sunVector (s : GCRF) : Vec3 := (Sun.getPosition s.epoch).minus s.position

/-- `GCRF.moon_vector` (states.py 276-282) -/
def moonVector (s : GCRF) : Py Vec3 := do
  let m ← Moon.getPosition s.epoch
  pure (m.minus s.position)

/-- `GCRF.acceleration_from_srp` (states.py 235-243) -/
def accelerationFromSrp (s : GCRF) : Py Vec3 := do
  let sun_vec ← s.sunVector.normalized
  let s_mag := sun_vec.magnitude
  let k ← pyDiv (-Sun.P * s.srp_scalar) (s_mag * s_mag * BASE_IN_KILO)
  pure (sun_vec.scaled k)

/-- `GCRF.acceleration_from_thrust` (states.py 245-251) -/
def accelerationFromThrust (s : GCRF) : Vec3 := s.thrust.copy

/-- `GCRF.derivative` (states.py 253-266): velocity and acceleration -/
def derivative (s : GCRF) : Py (Vec3 × Vec3) := do
  let a0 := s.accelerationFromThrust
  let ae ← s.accelerationFromEarth
  let a1 := a0.plus ae
  if s.use_perturbations then do
    let am ← s.accelerationFromMoon
    let as ← s.accelerationFromSun
    let ap ← s.accelerationFromSrp
    let ag ← s.accelerationFromGravity
    pure (s.velocity.copy, (((a1.plus am).plus as).plus ap).plus ag)
  else pure (s.velocity.copy, a1)

end GCRF

/-- the matrix `rot_rsw_sez` (states.py 330-334 and 374-378) from the sines and cosines -/
def rswSez (sp cp sl cl : ℝ) : Mat3 :=
  ⟨⟨sp * cl, sp * sl, -cp⟩, ⟨-sl, cl, 0⟩, ⟨cp * cl, cp * sl, sp⟩⟩

/-- `_StateConvertGCRF.to_hcw` (states.py 302-346) -/
def gcrfToHcw (origin state : GCRF) : Py State := do
  let magrtgt := origin.position.magnitude
  let magrint := state.position.magnitude
  let rot ← frameMatrix origin
  let vtgtrsw := rot.mulVec origin.velocity
  let rintrsw := rot.mulVec state.position
  let vintrsw := rot.mulVec state.velocity
  let sinphiint ← pyDiv rintrsw.z magrint
  let phiint ← pyAsin sinphiint
  let cosphiint := pyCos phiint
  let lambdaint := pyAtan2 rintrsw.y rintrsw.x
  let sinlambdaint := pySin lambdaint
  let coslambdaint := pyCos lambdaint
  let lambdadottgt ← pyDiv vtgtrsw.y magrtgt
  let r_hcw : Vec3 := ⟨magrint - magrtgt, lambdaint * magrtgt, phiint * magrtgt⟩
  let vintsez := (rswSez sinphiint cosphiint sinlambdaint coslambdaint).mulVec vintrsw
  let phidotint ← pyDiv (-vintsez.x) magrint
  let lambdadotint ← pyDiv vintsez.y (magrint * cosphiint)
  let v_hcw : Vec3 :=
    ⟨vintsez.z - vtgtrsw.x, magrtgt * (lambdadotint - lambdadottgt), magrtgt * phidotint⟩
  pure (State.new origin.epoch r_hcw v_hcw)

/-- `_StateConvertHCW.to_gcrf` (states.py 352-395) -/
def hcwToGcrf (state : State) (origin : GCRF) : Py GCRF := do
  let magrtgt := origin.position.magnitude
  let magrint := magrtgt + state.position.x
  let rot ← frameMatrix origin
  let vtgtrsw := rot.mulVec origin.velocity
  let lambdadottgt ← pyDiv vtgtrsw.y magrtgt
  let lambdaint ← pyDiv state.position.y magrtgt
  let phiint ← pyDiv state.position.z magrtgt
  let sinphiint := pySin phiint
  let cosphiint := pyCos phiint
  let sinlambdaint := pySin lambdaint
  let coslambdaint := pyCos lambdaint
  let sez := rswSez sinphiint cosphiint sinlambdaint coslambdaint
  let rdotint := state.velocity.x + vtgtrsw.x
  let vy ← pyDiv state.velocity.y magrtgt
  let lambdadotint := vy + lambdadottgt
  let phidotint ← pyDiv state.velocity.z magrtgt
  let vintsez : Vec3 := ⟨-magrint * phidotint, magrint * lambdadotint * cosphiint, rdotint⟩
  let vintrsw := sez.transpose.mulVec vintsez
  let vinteci := rot.transpose.mulVec vintrsw
  let rintrsw : Vec3 :=
    ⟨cosphiint * magrint * coslambdaint, cosphiint * magrint * sinlambdaint, sinphiint * magrint⟩
  let rinteci := rot.transpose.mulVec rintrsw
  pure (GCRF.new origin.epoch rinteci vinteci)

end

end Openspace
