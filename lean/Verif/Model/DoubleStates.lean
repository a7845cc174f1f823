import Verif.Model.DoubleVectors
import Verif.Model.DoublePositions
import Verif.Model.States

/-!
# The Hill frame in double precision

`HCW.frame_matrix` and the conversions between GCRF and HCW states with every operation rounded to the nearest double.
The functions of the C library are given as arbitrary functions.  As in `Model/Double` the exponent range is not bounded
and zeros have no sign.  Only position and velocity of a state are modelled; the epoch is handed on unchanged.
-/

namespace Openspace.F64

noncomputable section

/-- `Matrix3D.multiply_vector` (linalg.py 380-388) -/
def mulVec (m : Mat3) (v : Vec3) : Vec3 := ⟨dot m.row1 v, dot m.row2 v, dot m.row3 v⟩

/-- `HCW.frame_matrix` (states.py 103-115) of a position and a velocity -/
def frameMatrix (p v : Vec3) : Py Mat3 := do
  let r ← normalized p
  let c ← normalized (cross p v)
  let i := cross c r
  pure ⟨r, i, c⟩

/-- the matrix `rot_rsw_sez` (states.py 330-334 and 374-378) from the sines and cosines -/
def rswSez (sp cp sl cl : ℝ) : Mat3 :=
  ⟨⟨rnd (sp * cl), rnd (sp * sl), -cp⟩, ⟨-sl, cl, 0⟩, ⟨rnd (cp * cl), rnd (cp * sl), sp⟩⟩

/-- `_StateConvertGCRF.to_hcw` (states.py 302-346): position and velocity of the state `(ri, vi)` relative to the origin
`(ro, vo)` -/
def gcrfToHcw (lib : Libm) (ro vo ri vi : Vec3) : Py (Vec3 × Vec3) := do
  let magrtgt := magnitude ro
  let magrint := magnitude ri
  let rot ← frameMatrix ro vo
  let vtgtrsw := mulVec rot vo
  let rintrsw := mulVec rot ri
  let vintrsw := mulVec rot vi
  let sinphiint ← div rintrsw.z magrint
  let phiint ← asin lib sinphiint
  let cosphiint := lib.cos phiint
  let lambdaint := lib.atan2 rintrsw.y rintrsw.x
  let sinlambdaint := lib.sin lambdaint
  let coslambdaint := lib.cos lambdaint
  let lambdadottgt ← div vtgtrsw.y magrtgt
  let r_hcw : Vec3 := ⟨rnd (magrint - magrtgt), rnd (lambdaint * magrtgt), rnd (phiint * magrtgt)⟩
  let vintsez := mulVec (rswSez sinphiint cosphiint sinlambdaint coslambdaint) vintrsw
  let phidotint ← div (-vintsez.x) magrint
  let lambdadotint ← div vintsez.y (rnd (magrint * cosphiint))
  let v_hcw : Vec3 := ⟨rnd (vintsez.z - vtgtrsw.x), rnd (magrtgt * rnd (lambdadotint - lambdadottgt)),
    rnd (magrtgt * phidotint)⟩
  pure (r_hcw, v_hcw)

/-- `_StateConvertHCW.to_gcrf` (states.py 352-395): the relative state `(p, v)` seen from the origin `(ro, vo)` -/
def hcwToGcrf (lib : Libm) (p v ro vo : Vec3) : Py (Vec3 × Vec3) := do
  let magrtgt := magnitude ro
  let magrint := rnd (magrtgt + p.x)
  let rot ← frameMatrix ro vo
  let vtgtrsw := mulVec rot vo
  let lambdadottgt ← div vtgtrsw.y magrtgt
  let lambdaint ← div p.y magrtgt
  let phiint ← div p.z magrtgt
  let sinphiint := lib.sin phiint
  let cosphiint := lib.cos phiint
  let sinlambdaint := lib.sin lambdaint
  let coslambdaint := lib.cos lambdaint
  let sez := rswSez sinphiint cosphiint sinlambdaint coslambdaint
  let rdotint := rnd (v.x + vtgtrsw.x)
  let vy ← div v.y magrtgt
  let lambdadotint := rnd (vy + lambdadottgt)
  let phidotint ← div v.z magrtgt
  let vintsez : Vec3 := ⟨rnd (-magrint * phidotint), rnd (rnd (magrint * lambdadotint) * cosphiint), rdotint⟩
  let vintrsw := mulVec sez.transpose vintsez
  let vinteci := mulVec rot.transpose vintrsw
  let rintrsw : Vec3 :=
    ⟨rnd (rnd (cosphiint * magrint) * coslambdaint), rnd (rnd (cosphiint * magrint) * sinlambdaint),
     rnd (sinphiint * magrint)⟩
  let rinteci := mulVec rot.transpose rintrsw
  pure (rinteci, vinteci)

/-- `Spacecraft.impulsive_maneuver` (artificial.py 132-140): the new position and velocity -/
def impulsiveManeuver (lib : Libm) (ro vo ric_burn : Vec3) : Py (Vec3 × Vec3) := hcwToGcrf lib ⟨0, 0, 0⟩ ric_burn ro vo

end

end Openspace.F64
